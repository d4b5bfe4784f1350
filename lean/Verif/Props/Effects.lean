import Verif.Lemmas.EffectsOther

/-!
C115: the handlers of the lingos with whatever device and whatever writer their caller brings. A course is the list of the
calls a handler makes, in order, each with what it returned.
-/

namespace Props
open Go Spec.Effects Ipod Ipod.Effects

/-- C115. The courses `HandleGeneral` can take are exactly those listed in `Spec.Effects.General`: which calls a request
brings about, in which order, with which arguments, and how the results of the earlier ones go into the later ones. Nothing
depends on what the writer or `SetToken` returns: their results are arbitrary in every constructor. -/
theorem C115_general (req : Command) (es : List Event) :
    (∃ w, (handleGeneral req).run w [] = (es, some ())) ↔ General req es :=
  (runs_iff _ _ _).trans ⟨general_of_done req es (), done_of_general req es⟩

/-- C115. If a call does not come back (it panics, or waits for ever) it is the last one made, and what happened before is
the beginning of a complete course. -/
theorem C115_general_unfinished (req : Command) (es : List Event) :
    (∃ w, (handleGeneral req).run w [] = (es, none)) ↔
      ∃ (done : List Event) (c : Call) (r : c.Res) (rest : List Event), es = done ++ [⟨c, none⟩] ∧
        General req (done ++ got c r :: rest) := by
  rw [stuck_iff]
  constructor
  · rintro ⟨d, c, r, rest, a, he, h⟩; exact ⟨d, c, r, rest, he, general_of_done _ _ _ h⟩
  · rintro ⟨d, c, r, rest, he, h⟩; exact ⟨d, c, r, rest, (), he, done_of_general _ _ h⟩

/-- C115. The same for any of the handlers, in terms of their complete courses. -/
theorem C115_unfinished {α : Type} (p : Prog α) (es : List Event) :
    (∃ w, p.run w [] = (es, none)) ↔
      ∃ (done : List Event) (c : Call) (r : c.Res) (rest : List Event) (a : α), es = done ++ [⟨c, none⟩] ∧
        ∃ w, p.run w [] = (done ++ got c r :: rest, some a) := by
  rw [stuck_iff]
  constructor
  · rintro ⟨d, c, r, rest, a, he, h⟩; exact ⟨d, c, r, rest, a, he, (runs_iff _ _ _).2 h⟩
  · rintro ⟨d, c, r, rest, a, he, h⟩; exact ⟨d, c, r, rest, a, he, (runs_iff _ _ _).1 h⟩

/-- C115. `HandleDispRemote` asks nothing of the device: it asks for the time if the request does, and then writes what it
writes with that time when it starts with an empty buffer. It returns the error "unknown info type" exactly if a kind of
information is asked for that the lingo does not have. -/
theorem C115_display (req : Command) (es : List Event) (text : Option Bytes) :
    (∃ w, (handleDispRemote req).run w [] = (es, some text)) ↔
      ∃ (now : Time) (asked : List Event) (c : Ctx Unit) (errs : List (Option Err)),
        Ipod.handleDispRemote (fun _ => now) req blank = .ret c ∧ errs.length = c.out.length ∧
        es = asked ++ wroteAll c.out errs ∧
        (AsksTime req → asked = [got .now now]) ∧ (¬ AsksTime req → asked = []) ∧
        (UnknownInfo req → text = some (ascii "unknown info type")) ∧ (¬ UnknownInfo req → text = none) := by
  rw [runs_iff, disp_course]
  constructor
  · rintro ⟨now, pre, post, c, hc, ⟨errs, hl, rfl⟩, he, h⟩
    exact ⟨now, pre, c, errs, hc, hl, he, h⟩
  · rintro ⟨now, pre, c, errs, hc, hl, he, h⟩
    exact ⟨now, pre, _, c, hc, ⟨errs, hl, rfl⟩, he, h⟩

/-- C115. `HandleExtRemote` never asks the device (not even for the playback status): it only writes, and what it writes
with an empty buffer. -/
theorem C115_extended (req : Command) (es : List Event) :
    (∃ w, (Effects.handleExtRemote req).run w [] = (es, some ())) ↔
      ∃ (c : Ctx Unit) (errs : List (Option Err)), Ipod.handleExtRemote req blank = .ret c ∧
        errs.length = c.out.length ∧ es = wroteAll c.out errs := by
  rw [runs_iff, ext_writes]
  constructor
  · rintro ⟨c, hc, errs, hl, he⟩; exact ⟨c, errs, hc, hl, he⟩
  · rintro ⟨c, errs, hc, hl, he⟩; exact ⟨c, hc, errs, hl, he⟩

/-- C115. `HandleAudio` likewise. -/
theorem C115_audio (req : Command) (es : List Event) :
    (∃ w, (Effects.handleAudio req).run w [] = (es, some ())) ↔
      ∃ (c : Ctx Unit) (errs : List (Option Err)), Ipod.handleAudio req blank = .ret c ∧
        errs.length = c.out.length ∧ es = wroteAll c.out errs := by
  rw [runs_iff, audio_writes]
  constructor
  · rintro ⟨c, hc, errs, hl, he⟩; exact ⟨c, errs, hc, hl, he⟩
  · rintro ⟨c, errs, hc, hl, he⟩; exact ⟨c, hc, errs, hl, he⟩

/-- C115. `Start` of the digital audio lingo takes one transaction number of the iPod and asks for the sample rates under
it. -/
theorem C115_start (es : List Event) :
    (∃ w, Effects.audioStart.run w [] = (es, some ())) ↔
      ∃ (n : UInt16) (e : Option Err), es = originated n 0x0A0002 (.aud .GetAccSampleRateCaps) () e := by
  rw [runs_iff, Effects.audioStart, done_send]
  rfl

/-- C115. For a device whose questions have no effect, a writer that keeps the commands, and package variables nobody else
touches, the courses lead from each state to the state of Model/Handlers.lean, with which the other properties are proved:
those are about the special case. -/
theorem C115_plain {σ : Type} (D : Device σ) (clock : Clock) (cmd : Command) (c : Ctx σ) :
    ∃ es, (handlePacket cmd).run (plain D clock c) [] = (es, some ()) ∧
      Ipod.handlePacket D clock cmd c = .ret (plainAfter D c es) := by
  obtain ⟨es, h1, h2⟩ := run_plain D clock c (handlePacket cmd) []
  exact ⟨es, h1, by rw [packet_plain D clock, h2]; rfl⟩

/-- C115. `handlePacket` of cmd/ipod: which handler a command goes to, and that a message completing the certificate first
starts the digital audio lingo. -/
theorem C115_packet (cmd : Command) (es : List Event) :
    (∃ w, (handlePacket cmd).run w [] = (es, some ())) ↔
      (cmd.id.toNat / 65536 % 256 = 0 ∧ ∃ first rest, es = first ++ rest ∧ General cmd rest ∧
          (CertComplete cmd → ∃ n e, first = originated n 0x0A0002 (.aud .GetAccSampleRateCaps) () e) ∧
          (¬ CertComplete cmd → first = [])) ∨
      (cmd.id.toNat / 65536 % 256 = 3 ∧ ∃ text w, (handleDispRemote cmd).run w [] = (es, some text)) ∨
      (cmd.id.toNat / 65536 % 256 = 4 ∧ ∃ w, (Effects.handleExtRemote cmd).run w [] = (es, some ())) ∨
      (cmd.id.toNat / 65536 % 256 = 10 ∧ ∃ w, (Effects.handleAudio cmd).run w [] = (es, some ())) ∨
      (cmd.id.toNat / 65536 % 256 ∉ [0, 3, 4, 10] ∧ es = []) := by
  have hl := lingoID_toNat cmd.id
  have hz : ∀ k : UInt8, cmd.id.lingoID = k ↔ cmd.id.toNat / 65536 % 256 = k.toNat := by
    intro k; rw [← hl]; exact UInt8.toNat_inj.symm
  have hc : authComplete cmd.payload = true ↔ CertComplete cmd := by
    unfold CertComplete authComplete
    split
    · rename_i major minor cur max data u hp
      simp only [decide_eq_true_eq, ge_iff_le, UInt8.le_iff_toNat_le, UInt8.lt_iff_toNat_lt]
      constructor
      · intro h
        refine ⟨major, minor, cur, max, data, u, hp, ?_⟩
        have : (2 : UInt8).toNat = 2 := rfl
        omega
      · rintro ⟨major', minor', cur', max', data', u', hp', h⟩
        rw [hp] at hp'
        injection hp' with _ h1
        cases h1
        have : (2 : UInt8).toNat = 2 := rfl
        omega
    · rename_i hn
      constructor
      · intro h; cases h
      · rintro ⟨major', minor', cur', max', data', u', hp', h⟩
        exact (hn _ _ _ _ _ _ hp').elim
  have hd : ∀ (p : Prog (Option Bytes)), Done (p.bind fun _ => .ret ()) es () ↔ ∃ t, Done p es t := by
    intro p
    rw [done_bind]
    constructor
    · rintro ⟨es1, a, es2, rfl, h1, h2⟩
      rw [done_ret] at h2
      obtain ⟨rfl, -⟩ := h2
      exact ⟨a, by simpa using h1⟩
    · rintro ⟨t, h⟩; exact ⟨es, t, [], by simp, h, (done_ret _ _ _).2 ⟨rfl, rfl⟩⟩
  have key : Done (handlePacket cmd) es () ↔
      (if cmd.id.lingoID = 0 then Done (((if authComplete cmd.payload then Effects.audioStart else .ret ()) : Prog Unit).bind
          fun _ => Effects.handleGeneral cmd) es ()
      else if cmd.id.lingoID = 2 then es = []
      else if cmd.id.lingoID = 3 then ∃ t, Done (Effects.handleDispRemote cmd) es t
      else if cmd.id.lingoID = 4 then Done (Effects.handleExtRemote cmd) es ()
      else if cmd.id.lingoID = 10 then Done (Effects.handleAudio cmd) es ()
      else es = []) := by
    unfold Effects.handlePacket
    simp only [lingoGeneralID, lingoSimpleRemoteID, lingoDisplayRemoteID, lingoExtRemoteID, lingoDigitalAudioID]
    split
    · rfl
    · split
      · rw [done_ret]; simp
      · split
        · exact hd _
        · split
          · rfl
          · split
            · rfl
            · rw [done_ret]; simp
  simp only [runs_iff]
  rw [key]
  simp only [hz]
  generalize cmd.id.toNat / 65536 % 256 = l
  by_cases h0 : l = 0
  · subst h0
    rw [if_pos (by rfl), done_bind]
    simp only [Nat.reduceEqDiff, false_and, or_false, List.mem_cons, not_true, true_or]
    simp only [true_and]
    constructor
    · rintro ⟨es1, a, es2, rfl, h1, h2⟩
      refine ⟨es1, es2, rfl, general_of_done _ _ _ h2, ?_, ?_⟩
      · intro h
        rw [if_pos (hc.2 h)] at h1
        exact (done_send _ _ _ _).1 h1
      · intro h
        rw [if_neg (fun x => h (hc.1 x))] at h1
        exact ((done_ret _ _ _).1 h1).1
    · rintro ⟨es1, es2, rfl, h2, h3, h4⟩
      refine ⟨es1, (), es2, rfl, ?_, done_of_general _ _ h2⟩
      by_cases h : CertComplete cmd
      · rw [if_pos (hc.2 h)]
        exact (done_send _ _ _ _).2 (h3 h)
      · rw [if_neg (fun x => h (hc.1 x)), h4 h]
        exact (done_ret _ _ _).2 ⟨rfl, rfl⟩
  · have e0 : (0 : UInt8).toNat = 0 := rfl
    rw [e0, if_neg h0]
    have e2 : (2 : UInt8).toNat = 2 := rfl
    have e3 : (3 : UInt8).toNat = 3 := rfl
    have e4 : (4 : UInt8).toNat = 4 := rfl
    have e10 : (10 : UInt8).toNat = 10 := rfl
    rw [e2, e3, e4, e10]
    by_cases h2 : l = 2
    · subst h2; simp
    · rw [if_neg h2]
      by_cases h3 : l = 3
      · subst h3; simp
      · rw [if_neg h3]
        by_cases h4 : l = 4
        · subst h4; simp
        · rw [if_neg h4]
          by_cases h10 : l = 10
          · subst h10; simp
          · rw [if_neg h10]
            simp [h0, h3, h4, h10]

/-! ### Examples -/

/-- A device that is always in extended mode has nothing to do. -/
example : General ⟨0x05, some 7, .ptr (.gen .EnterRemoteUIMode) ()⟩
    [got .uiMode (0x01 : UInt8), acked ⟨0x05, some 7, .ptr (.gen .EnterRemoteUIMode) ()⟩ 0x00 (some .eof)] :=
  .alreadyEntered _ _ rfl

/-- A device that panics when its mode is set, with a writer that fails: the accessory is told to wait, and that is all. -/
example : ∃ w, (handleGeneral ⟨0x05, some 7, .ptr (.gen .EnterRemoteUIMode) ()⟩).run w [] =
    ([got .uiMode (0x00 : UInt8), ackedPending ⟨0x05, some 7, .ptr (.gen .EnterRemoteUIMode) ()⟩ (some .eof),
      ⟨.setUIMode 0x01, none⟩], none) :=
  (C115_general_unfinished _ _).2 ⟨[got .uiMode (0x00 : UInt8), ackedPending _ (some .eof)], .setUIMode 0x01, (), [acked _ 0x00 none],
    rfl, .enter () 0x00 (some .eof) none rfl (by decide)⟩

/-- A course of that request is never one without an answer. -/
example (es : List Event) (v) (h : General ⟨0x05, some 7, .ptr (.gen .EnterRemoteUIMode) v⟩ es) :
    ∃ e, es.getLast? = some (acked ⟨0x05, some 7, .ptr (.gen .EnterRemoteUIMode) v⟩ 0x00 e) := by
  cases h <;> first
    | exact ⟨_, rfl⟩
    | (rename_i hp; cases hp; done)
    | (rename_i hp _; cases hp; done)
    | (rename_i hp _ _; cases hp; done)
    | (rename_i hp _ _ _; cases hp; done)
    | (rename_i ht hp hn; cases hp; exact (hn _ (by decide) rfl).elim)

/-- A question about the state of a kind that does not exist. -/
example : UnknownInfo ⟨0x03000C, none, .ptr (.disp .GetiPodStateInfo) (10, ())⟩ := .state 10 () rfl (.inl rfl)

example : (handleDispRemote ⟨0x03000C, none, .ptr (.disp .GetiPodStateInfo) (10, ())⟩).run (fun _ _ => none) [] =
    ([], some (some (ascii "unknown info type"))) := rfl

/-- The last section of a certificate. -/
example : CertComplete ⟨0x15, some 1, .ptr (.gen .RetDevAuthenticationInfo) (2, 0, 1, 1, [0x30], ())⟩ :=
  ⟨2, 0, 1, 1, [0x30], (), rfl, by decide⟩

end Props
