import Verif.Spec.LogServer
import Verif.Props.Log
import Verif.Props.Server

/-! Properties of the log of the server (C82). -/

namespace Props
open Go Spec Ipod Ipod.Log

theorem readLogged_eq (pre : Bytes) (mode : Bool) (frame : Slice) : readLogged pre mode frame =
    match readPacket frame with
    | .panic => .panic
    | .ret (rest, .error e) =>
      if e = .eof then .ret (mode, [], [])
      else readLogged pre mode rest >>= fun y => .ret (y.1, y.2.1, logLen 0 (some e) (pre ++ ascii "PACKET") :: y.2.2)
    | .ret (rest, .ok pkt) =>
      unmarshalCmd mode pkt >>= fun x =>
      readLogged pre x.1 rest >>= fun y =>
      .ret (y.1, x.2.1 :: y.2.1,
        logLen pkt.length none (pre ++ ascii "PACKET") :: (modeLines mode x.1 ++ logCmd x.2.1 x.2.2 (pre ++ ascii "CMD") :: y.2.2)) := by
  rw [readLogged]
  split <;> simp_all

/-- The log apart, the packet loop is the one modelled before. -/
theorem readLogged_same (pre : Bytes) (m : Bool) (f : Slice) :
    (readLogged pre m f >>= fun y => .ret (y.1, y.2.1)) = readCommands m f := by
  obtain ⟨d, spare⟩ := f
  obtain ⟨ps, b, hs⟩ := scan_total spare d
  induction hs generalizing m with
  | done hf => rw [readLogged_eq, readCommands_eq, readPacket_filler _ spare hf]; rfl
  | crash hj ho => rw [readLogged_eq, readCommands_eq, readPacket_overrun hj ho]; rfl
  | @packet j w rest p ps b hj hw hs ih =>
    rw [readLogged_eq, readCommands_eq, readPacket_isPacket _ _ _ _ spare hj hw]
    dsimp only
    cases hu : unmarshalCmd m p with
    | panic => rfl
    | ret x =>
      simp only [Out.bind_ret, ← ih]
      cases readLogged pre x.1 ⟨rest, spare⟩ with
      | panic => rfl
      | ret y => rfl
  | @skip j d ps b hj hp ho hs ih =>
    obtain ⟨e, he, r⟩ := readPacket_skip hj hp ho
    rw [readLogged_eq, readCommands_eq, r]
    simp only [if_neg he, ← ih]
    cases readLogged pre m ⟨d, spare⟩ with
    | panic => rfl
    | ret y => rfl

theorem handleLogged_same {σ : Type} (D : Device σ) (clock : Clock) (dlog : Command → Ctx σ → List Line) (cmds : List Command) (c : Ctx σ) :
    (handleLogged D clock dlog cmds c >>= fun x => .ret x.1) = handleAll D clock cmds c := by
  induction cmds generalizing c with
  | nil => rfl
  | cons cmd cmds ih =>
    rw [handleLogged, handleAll]
    cases handlePacket D clock cmd c with
    | panic => rfl
    | ret c' =>
      simp only [Out.bind_ret, ← ih]
      cases handleLogged D clock dlog cmds c' with
      | panic => rfl
      | ret y => rfl

theorem sendLogged_same (werr : Nat → Option Err) (k : Nat) (m : Bool) (cmds : List Command) :
    ((sendLogged werr k m cmds).1, (sendLogged werr k m cmds).2.1) = sendAll m cmds := by
  induction cmds generalizing k m with
  | nil => rfl
  | cons cmd cmds ih =>
    simp only [sendLogged, sendAll, ← ih (k + 1)]
    rfl

theorem frameLogged_same {σ : Type} (D : Device σ) (clock : Clock) (dlog : Command → Ctx σ → List Line) (werr : Nat → Option Err) (k : Nat)
    (s : Srv σ) (f : Slice) : (frameLogged D clock dlog werr k s f >>= fun x => .ret (x.1, x.2.1)) = processFrame D clock s f := by
  rw [frameLogged, processFrame, ← readLogged_same (ascii "<< ")]
  cases readLogged (ascii "<< ") s.mode f with
  | panic => rfl
  | ret x =>
    simp only [Out.bind_ret, ← handleLogged_same D clock dlog]
    cases handleLogged D clock dlog x.2.1 { s.ctx with out := [] } with
    | panic => rfl
    | ret c => simp only [Out.bind_ret, ← sendLogged_same werr k]

/-- C82. Logging changes nothing: the run is the one without it. -/
theorem C82_same {σ : Type} (D : Device σ) (clock : Clock) (dlog : Command → Ctx σ → List Line) (werr : Nat → Option Err) (k : Nat)
    (reads : List (Except Err Slice)) (s : Srv σ) :
    (framesLogged D clock dlog werr k reads s >>= fun x => .ret (x.1, x.2.1)) = processFrames D clock reads s := by
  induction reads generalizing k s with
  | nil => rfl
  | cons r reads ih =>
    rcases r with e | f
    · by_cases he : e = .eof
      · subst he; rfl
      · rw [framesLogged.eq_3 _ _ _ _ _ _ _ _ (by simpa using he), processFrames.eq_3 _ _ _ _ _ (by simpa using he), ← ih k]
        cases framesLogged D clock dlog werr k reads s with
        | panic => rfl
        | ret y => rfl
    · rw [framesLogged, processFrames, ← frameLogged_same D clock dlog werr k]
      cases frameLogged D clock dlog werr k s f with
      | panic => rfl
      | ret x =>
        simp only [Out.bind_ret, ← ih (k + x.2.1.length)]
        cases framesLogged D clock dlog werr (k + x.2.1.length) reads x.1 with
        | panic => rfl
        | ret y => rfl

theorem shownAll_append {pre : String} {a b : List Event} {l l' : List Line} (h : ShownAll pre a l) (h' : ShownAll pre b l') :
    ShownAll pre (a ++ b) (l ++ l') := by
  induction h with
  | nil => exact h'
  | cons h1 _ ih => exact .cons h1 ih

theorem lingoID_shift (id : LingoCmdID) : id.lingoID = (id >>> 16).toUInt8 := by
  apply UInt8.toNat_inj.1
  simp only [LingoCmdID.lingoID, UInt32.toNat_toUInt8, UInt32.toNat_and, UInt32.toNat_shiftRight]
  rw [show (255 : UInt32).toNat = 2 ^ 8 - 1 from rfl, Nat.and_two_pow_sub_one_eq_mod]
  omega

theorem cmdID_low (id : LingoCmdID) : id.cmdID = id.toUInt16 := by
  apply UInt16.toNat_inj.1
  simp only [LingoCmdID.cmdID, UInt32.toNat_toUInt16, UInt32.toNat_and]
  rw [show (65535 : UInt32).toNat = 2 ^ 16 - 1 from rfl, Nat.and_two_pow_sub_one_eq_mod]
  omega

theorem string_text (id : LingoCmdID) : IdText "" "," "" (id >>> 16).toUInt8 id.toUInt16 (LingoCmdID.string id) := by
  have e : LingoCmdID.string id = LingoCmdID.string (idOf (id >>> 16).toUInt8 id.toUInt16) := by
    rw [LingoCmdID.string, LingoCmdID.string, lingoID_idOf, cmdID_idOf, lingoID_shift, cmdID_low]
  rw [e]
  exact idOf_string _ _

theorem commandFields_fields (cmd : Command) : CmdFields cmd (commandFields cmd) := by
  refine ⟨_, _, _, string_text _, ?_, ?_, rfl⟩
  · cases cmd.trx with
    | none => rfl
    | some t => exact (C71_trx_text_partial t).1
  · cases cmd.payload <;> rfl

theorem modeLines_shown (pre : String) (m m' : Bool) : ShownAll pre (modeEvents m m') (modeLines m m') := by
  cases m <;> cases m' <;> first | exact .nil | exact .cons .on .nil | exact .cons .off .nil

theorem logCmd_in {pre : String} (cmd : Command) (err : Option Err) : ShownAs pre (.cmdIn cmd err) (logCmd cmd err (ascii pre ++ ascii "CMD")) := by
  cases err with
  | none => exact .cmdIn (commandFields_fields cmd)
  | some e => exact .cmdInErr (commandFields_fields cmd)

theorem readLogged_events {pre : String} {m m' : Bool} {d spare : Bytes} {cmds : List Command} {ls : List Line}
    (h : readLogged (ascii pre) m ⟨d, spare⟩ = .ret (m', cmds, ls)) :
    ∃ l evs, ScanItems spare d l ∧ InEvents m l m' cmds evs ∧ ShownAll pre evs ls := by
  obtain ⟨ps, b, hs⟩ := scan_total spare d
  induction hs generalizing m cmds ls with
  | done hf =>
    rw [readLogged_eq, readPacket_filler _ spare hf] at h
    cases h
    exact ⟨[], [], .done hf, .nil, .nil⟩
  | crash hj ho => rw [readLogged_eq, readPacket_overrun hj ho] at h; cases h
  | @packet j w rest p ps b hj hw hs ih =>
    rw [readLogged_eq, readPacket_isPacket _ _ _ _ spare hj hw] at h
    cases hu : unmarshalCmd m p with
    | panic => simp only [hu] at h; cases h
    | ret x =>
      obtain ⟨m1, cmd, err⟩ := x
      simp only [hu, Out.bind_ret] at h
      cases hr : readLogged (ascii pre) m1 ⟨rest, spare⟩ with
      | panic => simp only [hr] at h; cases h
      | ret y =>
        simp only [hr, Out.bind_ret] at h
        cases h
        obtain ⟨l, evs, h1, h2, h3⟩ := ih hr
        exact ⟨_, _, .packet hj hw h1, .packet hu h2,
          .cons .packetIn (shownAll_append (modeLines_shown pre m m1) (.cons (logCmd_in cmd err) h3))⟩
  | @skip j d ps b hj hp ho hs ih =>
    obtain ⟨e, he, r⟩ := readPacket_skip hj hp ho
    rw [readLogged_eq, r] at h
    simp only [if_neg he] at h
    cases hr : readLogged (ascii pre) m ⟨d, spare⟩ with
    | panic => rw [hr] at h; cases h
    | ret y =>
      rw [hr] at h
      simp only [Out.bind_ret] at h
      cases h
      obtain ⟨l, evs, h1, h2, h3⟩ := ih hr
      exact ⟨_, _, .skip hj hp ho h1, .bad he h2, .cons .packetInErr h3⟩

theorem handlerLines_shown {σ : Type} (pre : String) (dlog : Command → Ctx σ → List Line) (cmd : Command) (c : Ctx σ) :
    ShownAll pre (handlerEvents dlog cmd c) (handlerLines dlog cmd c) := by
  rw [handlerEvents, handlerLines, lingoID_shift]
  by_cases h0 : (cmd.id >>> 16).toUInt8 = 0x00
  · rw [if_pos h0, if_pos (show _ = lingoGeneralID from h0)]
    generalize dlog cmd c = ls
    induction ls with
    | nil => exact .nil
    | cons l ls ih => exact .cons .device ih
  · rw [if_neg h0, if_neg (show ¬ _ = lingoGeneralID from h0)]
    by_cases h2 : (cmd.id >>> 16).toUInt8 = 0x02
    · rw [if_pos h2, if_pos (show _ = lingoSimpleRemoteID from h2)]
      exact .cons .unsupported .nil
    · rw [if_neg h2, if_neg (show ¬ _ = lingoSimpleRemoteID from h2)]
      exact .nil

theorem handleLogged_events {σ : Type} {D : Device σ} {clock : Clock} {dlog : Command → Ctx σ → List Line} (pre : String)
    {cmds : List Command} {c c' : Ctx σ} {ls : List Line} (h : handleLogged D clock dlog cmds c = .ret (c', ls)) :
    ∃ news evs, HandleEvents D clock dlog cmds c c' news evs ∧ ShownAll pre evs ls ∧ c'.out = c.out ++ news.flatten := by
  induction cmds generalizing c ls with
  | nil => cases h; exact ⟨[], [], .nil, .nil, by simp⟩
  | cons cmd cmds ih =>
    obtain ⟨c1, new, h1, h2, _⟩ := handlePacket_emits D clock cmd c
    rw [handleLogged, h1] at h
    simp only [Out.bind_ret] at h
    cases hr : handleLogged D clock dlog cmds c1 with
    | panic => rw [hr] at h; cases h
    | ret y =>
      rw [hr] at h
      simp only [Out.bind_ret] at h
      cases h
      obtain ⟨news, evs, h3, h4, h5⟩ := ih hr
      exact ⟨_ :: news, _, .cons ⟨h1, h2⟩ h3, shownAll_append (handlerLines_shown pre dlog cmd c) h4, by rw [h5, h2]; simp⟩

theorem packetFrame_frameOf {m : Bool} {cmd : Command} {p : Bytes} (h : (marshalCmd m cmd).2 = .ok p) :
    PacketFrame p (writePacket newPacketWriter p).1 := by
  intro hp
  have := frameOf_frameFor (r := .ok p) (fun q e => by cases e; exact ⟨marshal_ne_nil h, hp⟩)
  cases this with
  | packet h => exact h

theorem logLen_out (f : Bytes) (err : Option Err) (pre : String) :
    ShownAs pre (.frameOut f err) (logLen f.length err (ascii ">> FRAME")) := by
  cases err with
  | none => exact .frameOut
  | some e => exact .frameOutErr

theorem sendLogged_events (pre : String) (werr : Nat → Option Err) (k : Nat) (m : Bool) (cmds : List Command) :
    ∃ evs, OutEvents werr k m cmds (sendLogged werr k m cmds).1 (sendLogged werr k m cmds).2.1 evs ∧
      ShownAll pre evs (sendLogged werr k m cmds).2.2 := by
  induction cmds generalizing k m with
  | nil => exact ⟨[], .nil, .nil⟩
  | cons cmd cmds ih =>
    obtain ⟨evs, h1, h2⟩ := ih (k + 1) (marshalCmd m cmd).1
    simp only [sendLogged]
    cases hr : (marshalCmd m cmd).2 with
    | ok p =>
      refine ⟨_, .cons (r := .ok p) (by rw [← hr]) (fun q e => ?_) (fun e he => by cases he) h1,
        .cons (.cmdOut (commandFields_fields cmd)) (shownAll_append (modeLines_shown pre _ _) (.cons .packetOut (.cons (logLen_out _ _ _) h2)))⟩
      cases e
      exact packetFrame_frameOf hr
    | error e =>
      exact ⟨_, .cons (r := .error e) (by rw [← hr]) (fun q e => by cases e) (fun e he => rfl) h1,
        .cons (.cmdOut (commandFields_fields cmd)) (shownAll_append (modeLines_shown pre _ _) (.cons .packetOutErr (.cons (logLen_out _ _ _) h2)))⟩

/-- C82. The log consists of one line for each event of the run, in order, each showing what happened: the frames read, the
packets found in them and the places where none begins, changes of the transaction mode, the commands with their ids,
transactions and types, the answers, their encodings and the frames handed to the transport, each with its error if there was
one; the end of the run. -/
theorem C82_log {σ : Type} (D : Device σ) (clock : Clock) (dlog : Command → Ctx σ → List Line) (werr : Nat → Option Err) (k : Nat)
    (reads : List (Except Err Slice)) (s s' : Srv σ) (w : List Bytes) (ls : List Line)
    (h : framesLogged D clock dlog werr k reads s = .ret (s', w, ls)) :
    ∃ evs, RunEvents D clock dlog werr k s reads s' w evs ∧ ShownAll "<< " evs ls := by
  have eF : ascii "<< FRAME" = ascii "<< " ++ ascii "FRAME" := by decide +kernel
  induction reads generalizing k s w ls with
  | nil => cases h; exact ⟨_, .done, .cons .finished .nil⟩
  | cons r reads ih =>
    rcases r with e | f
    · by_cases he : e = .eof
      · subst he; cases h; exact ⟨_, .eof, .cons .finished .nil⟩
      · rw [framesLogged.eq_3 _ _ _ _ _ _ _ _ (by simpa using he)] at h
        cases hr : framesLogged D clock dlog werr k reads s with
        | panic => rw [hr] at h; cases h
        | ret y =>
          rw [hr] at h
          cases h
          obtain ⟨evs, h1, h2⟩ := ih _ _ _ _ hr
          exact ⟨_, .error he h1, .cons (by rw [eF]; exact .frameInErr) h2⟩
    · rw [framesLogged] at h
      cases hx : frameLogged D clock dlog werr k s f with
      | panic => rw [hx] at h; cases h
      | ret x =>
        rw [hx] at h
        simp only [Out.bind_ret] at h
        cases hr : framesLogged D clock dlog werr (k + x.2.1.length) reads x.1 with
        | panic => rw [hr] at h; cases h
        | ret y =>
          rw [hr] at h
          cases h
          rw [frameLogged] at hx
          cases ha : readLogged (ascii "<< ") s.mode f with
          | panic => rw [ha] at hx; cases hx
          | ret a =>
            obtain ⟨m, cmds, la⟩ := a
            rw [ha] at hx
            simp only [Out.bind_ret] at hx
            cases hb : handleLogged D clock dlog cmds { s.ctx with out := [] } with
            | panic => rw [hb] at hx; cases hx
            | ret b =>
              rw [hb] at hx
              simp only [Out.bind_ret] at hx
              cases hx
              obtain ⟨d, spare⟩ := f
              obtain ⟨l, e1, f1, f2, f3⟩ := readLogged_events ha
              obtain ⟨news, e2, g1, g2, g3⟩ := handleLogged_events "<< " hb
              obtain ⟨e3, o1, o2⟩ := sendLogged_events "<< " werr k m b.1.out
              obtain ⟨e4, h1, h2⟩ := ih _ _ _ _ hr
              rw [List.nil_append] at g3
              have o1' : ∀ x, b.1.out = x →
                  OutEvents werr k m x (sendLogged werr k m b.1.out).1 (sendLogged werr k m b.1.out).2.1 e3 := by
                intro x hx
                subst hx
                exact o1
              refine ⟨_, .frame f1 f2 g1 (o1' _ g3) h1, .cons (by rw [eF]; exact .frameIn) ?_⟩
              exact shownAll_append (shownAll_append (shownAll_append f3 g2) o2) h2

theorem modeLogged_append (m : Bool) (a b : List Event) : modeLogged m (a ++ b) = modeLogged (modeLogged m a) b := by
  induction a generalizing m with
  | nil => rfl
  | cons ev a ih => cases ev <;> exact ih _

theorem alternating_append (m : Bool) (a b : List Event) : Alternating m (a ++ b) ↔ Alternating m a ∧ Alternating (modeLogged m a) b := by
  induction a generalizing m with
  | nil => simp [Alternating, modeLogged]
  | cons ev a ih => cases ev <;> simp only [List.cons_append, Alternating, modeLogged, ih, and_assoc]

theorem modeEvents_mode (m m' : Bool) : modeLogged m (modeEvents m m') = m' ∧ Alternating m (modeEvents m m') := by
  cases m <;> cases m' <;> simp [modeEvents, modeLogged, Alternating]

theorem inEvents_mode {m m' : Bool} {l : List (Option Bytes)} {cmds : List Command} {evs : List Event} (h : InEvents m l m' cmds evs) :
    modeLogged m evs = m' ∧ Alternating m evs := by
  induction h with
  | nil => exact ⟨rfl, trivial⟩
  | bad _ _ ih => exact ih
  | @packet m m1 m' p l cmd cmds err evs _ _ ih =>
    obtain ⟨h1, h2⟩ := modeEvents_mode m m1
    refine ⟨?_, ?_⟩
    · rw [modeLogged, modeLogged_append, h1]; exact ih.1; all_goals simp
    · rw [Alternating, alternating_append, h1]; exact ⟨h2, ih.2⟩; all_goals simp

theorem outEvents_mode {werr : Nat → Option Err} {k : Nat} {m m' : Bool} {cmds : List Command} {w : List Bytes} {evs : List Event}
    (h : OutEvents werr k m cmds m' w evs) : modeLogged m evs = m' ∧ Alternating m evs := by
  induction h with
  | nil => exact ⟨rfl, trivial⟩
  | @cons k m m1 m' cmd cmds r f w evs _ _ _ _ ih =>
    obtain ⟨h1, h2⟩ := modeEvents_mode m m1
    refine ⟨?_, ?_⟩
    · rw [modeLogged, modeLogged_append, h1]; exact ih.1; all_goals simp
    · rw [Alternating, alternating_append, h1]; exact ⟨h2, ih.2⟩; all_goals simp

theorem handleEvents_mode {σ : Type} {D : Device σ} {clock : Clock} {dlog : Command → Ctx σ → List Line} {cmds : List Command}
    {c c' : Ctx σ} {news : List (List Command)} {evs : List Event} (h : HandleEvents D clock dlog cmds c c' news evs) (m : Bool) :
    modeLogged m evs = m ∧ Alternating m evs := by
  have dev : ∀ ls : List Line, modeLogged m (ls.map .device) = m ∧ Alternating m (ls.map .device) := by
    intro ls
    induction ls with
    | nil => exact ⟨rfl, trivial⟩
    | cons l ls ih => exact ih
  have one : ∀ cmd c, modeLogged m (handlerEvents dlog cmd c) = m ∧ Alternating m (handlerEvents dlog cmd c) := by
    intro cmd c
    rw [handlerEvents]
    split
    · exact dev _
    · split <;> exact ⟨rfl, trivial⟩
  induction h with
  | nil => exact ⟨rfl, trivial⟩
  | cons _ _ ih =>
    obtain ⟨h1, h2⟩ := one _ _
    rw [modeLogged_append, alternating_append, h1]
    exact ⟨ih.1, h2, ih.2⟩

theorem run_mode {σ : Type} {D : Device σ} {clock : Clock} {dlog : Command → Ctx σ → List Line} {werr : Nat → Option Err} {k : Nat}
    {reads : List (Except Err Slice)} {s s' : Srv σ} {w : List Bytes} {evs : List Event} (h : RunEvents D clock dlog werr k s reads s' w evs) :
    modeLogged s.mode evs = s'.mode ∧ Alternating s.mode evs := by
  induction h with
  | done => exact ⟨rfl, trivial⟩
  | eof => exact ⟨rfl, trivial⟩
  | error _ _ ih => exact ih
  | @frame k s f reads s' l m m' cmds c news w w' e1 e2 e3 e4 _ h1 h2 h3 _ ih =>
    obtain ⟨a1, a2⟩ := inEvents_mode h1
    obtain ⟨b1, b2⟩ := handleEvents_mode h2 m
    obtain ⟨c1, c2⟩ := outEvents_mode h3
    have e1' : modeLogged s.mode (e1 ++ e2 ++ e3) = m' := by rw [modeLogged_append, modeLogged_append, a1, b1, c1]
    refine ⟨?_, ?_⟩
    · rw [modeLogged, modeLogged_append, e1']; exact ih.1; all_goals simp
    · rw [Alternating, alternating_append, e1', alternating_append, alternating_append, modeLogged_append, a1, b1]
      · exact ⟨⟨⟨a2, b2⟩, c2⟩, ih.2⟩
      all_goals simp

/-- The lines show the events, hence also how many there are of a kind. -/
theorem shownAll_count {pre : String} {evs : List Event} {ls : List Line} (h : ShownAll pre evs ls) (f : Event → Bool) (g : Line → Bool)
    (hfg : ∀ ev ∈ evs, ∀ l, ShownAs pre ev l → f ev = g l) : (ls.filter g).length = (evs.filter f).length := by
  induction h with
  | nil => rfl
  | @cons ev l evs ls h1 _ ih =>
    have := hfg ev (by simp) l h1
    rw [List.filter_cons, List.filter_cons, this]
    have ih := ih fun ev hev => hfg ev (by simp [hev])
    split <;> simp [ih]

theorem device_mem {σ : Type} {D : Device σ} {clock : Clock} {dlog : Command → Ctx σ → List Line} {werr : Nat → Option Err} {k : Nat}
    {reads : List (Except Err Slice)} {s s' : Srv σ} {w : List Bytes} {evs : List Event} (h : RunEvents D clock dlog werr k s reads s' w evs)
    {l : Line} (hl : .device l ∈ evs) : ∃ cmd c, l ∈ dlog cmd c := by
  have hmode : ∀ m m', Event.device l ∉ modeEvents m m' := by
    intro m m' h
    rw [modeEvents] at h
    split at h <;> simp at h
  have hin : ∀ {m m' l' cmds evs}, InEvents m l' m' cmds evs → Event.device l ∉ evs := by
    intro m m' l' cmds evs h
    induction h with
    | nil => simp
    | bad _ _ ih => simpa using ih
    | packet _ _ ih => simp [hmode, ih]
  have hout : ∀ {k m cmds m' w evs}, OutEvents werr k m cmds m' w evs → Event.device l ∉ evs := by
    intro k m cmds m' w evs h
    induction h with
    | nil => simp
    | cons _ _ _ _ ih => simp [hmode, ih]
  have hhan : ∀ {cmds c c' news evs}, HandleEvents D clock dlog cmds c c' news evs → Event.device l ∈ evs → ∃ cmd c, l ∈ dlog cmd c := by
    intro cmds c c' news evs h
    induction h with
    | nil => simp
    | @cons cmd cmds c c' c'' new news evs _ _ ih =>
      intro hm
      rcases List.mem_append.1 hm with hm | hm
      · rw [handlerEvents] at hm
        split at hm
        · obtain ⟨x, hx, e⟩ := List.mem_map.1 hm
          cases e
          exact ⟨_, _, hx⟩
        · split at hm <;> simp at hm
      · exact ih hm
  induction h with
  | done => simp at hl
  | eof => simp at hl
  | error _ _ ih => exact ih (by simpa using hl)
  | frame _ h1 h2 h3 _ ih =>
    rcases List.mem_cons.1 hl with e | hl
    · cases e
    · rcases List.mem_append.1 hl with hl | hl
      · rcases List.mem_append.1 hl with hl | hl
        · rcases List.mem_append.1 hl with hl | hl
          · exact absurd hl (hin h1)
          · exact hhan h2 hl
        · exact absurd hl (hout h3)
      · exact ih hl

/-- C82. There are as many lines of the level of errors as things went wrong: frames and packets that could not be read, commands
that could not be decoded, answers that could not be encoded or written (and what the device calls an error). -/
theorem C82_errors {σ : Type} (D : Device σ) (clock : Clock) (dlog : Command → Ctx σ → List Line)
    (werr : Nat → Option Err) (k : Nat) (reads : List (Except Err Slice)) (s s' : Srv σ) (w : List Bytes) (ls : List Line)
    (h : framesLogged D clock dlog werr k reads s = .ret (s', w, ls)) :
    ∃ evs, RunEvents D clock dlog werr k s reads s' w evs ∧ (ls.filter (·.level = 2)).length = (evs.filter Bad).length := by
  obtain ⟨evs, h1, h2⟩ := C82_log D clock dlog werr k reads s s' w ls h
  refine ⟨evs, h1, shownAll_count h2 _ _ fun ev hev l hs => ?_⟩
  cases hs <;> rfl

/-- C82. Whether transactions are on can be read off the log: each line about it is a change, the last one (or the start) tells. -/
theorem C82_mode {σ : Type} (D : Device σ) (clock : Clock) (dlog : Command → Ctx σ → List Line) (hd : Modest dlog)
    (werr : Nat → Option Err) (k : Nat) (reads : List (Except Err Slice)) (s s' : Srv σ) (w : List Bytes) (ls : List Line)
    (h : framesLogged D clock dlog werr k reads s = .ret (s', w, ls)) :
    modeShown s.mode ls = s'.mode ∧
      ∃ evs, RunEvents D clock dlog werr k s reads s' w evs ∧ ShownAll "<< " evs ls ∧ Alternating s.mode evs := by
  obtain ⟨evs, h1, h2⟩ := C82_log D clock dlog werr k reads s s' w ls h
  obtain ⟨h3, h4⟩ := run_mode h1
  refine ⟨?_, evs, h1, h2, h4⟩
  rw [← h3]
  have hdev : ∀ l', .device l' ∈ evs → l'.message ≠ ascii "Enabling transaction support" ∧
      l'.message ≠ ascii "Disabling transaction support" := by
    intro l' hm
    obtain ⟨cmd, c, hm⟩ := device_mem h1 hm
    have := hd cmd c l' hm
    simp only [List.mem_cons, not_or] at this
    exact this.2.imp id And.left
  clear h h1 h3 h4
  have e1 : ascii "<< " ++ ascii "FRAME" ≠ ascii "Enabling transaction support" := by decide +kernel
  have e2 : ascii "<< " ++ ascii "FRAME" ≠ ascii "Disabling transaction support" := by decide +kernel
  have e3 : ascii "<< " ++ ascii "PACKET" ≠ ascii "Enabling transaction support" := by decide +kernel
  have e4 : ascii "<< " ++ ascii "PACKET" ≠ ascii "Disabling transaction support" := by decide +kernel
  have e5 : ascii "<< " ++ ascii "CMD" ≠ ascii "Enabling transaction support" := by decide +kernel
  have e6 : ascii "<< " ++ ascii "CMD" ≠ ascii "Disabling transaction support" := by decide +kernel
  have e7 : ascii "Lingo SimpleRemote is not supported yet" ≠ ascii "Enabling transaction support" := by decide +kernel
  have e8 : ascii "Lingo SimpleRemote is not supported yet" ≠ ascii "Disabling transaction support" := by decide +kernel
  have e9 : ascii ">> CMD" ≠ ascii "Enabling transaction support" := by decide +kernel
  have e10 : ascii ">> CMD" ≠ ascii "Disabling transaction support" := by decide +kernel
  have e11 : ascii ">> PACKET" ≠ ascii "Enabling transaction support" := by decide +kernel
  have e12 : ascii ">> PACKET" ≠ ascii "Disabling transaction support" := by decide +kernel
  have e13 : ascii ">> FRAME" ≠ ascii "Enabling transaction support" := by decide +kernel
  have e14 : ascii ">> FRAME" ≠ ascii "Disabling transaction support" := by decide +kernel
  have e15 : ascii "EOF" ≠ ascii "Enabling transaction support" := by decide +kernel
  have e16 : ascii "EOF" ≠ ascii "Disabling transaction support" := by decide +kernel
  have e17 : ascii "Disabling transaction support" ≠ ascii "Enabling transaction support" := by decide +kernel
  generalize s.mode = m
  induction h2 generalizing m with
  | nil => rfl
  | @cons ev l evs ls hs _ ih =>
    have ih := ih fun l' hm => hdev l' (by simp [hm])
    rw [modeShown]
    cases hs with
    | on => rw [if_pos rfl]; exact ih _
    | off => rw [if_neg e17, if_pos rfl]; exact ih _
    | device =>
      obtain ⟨a, b⟩ := hdev l (by simp)
      rw [if_neg a, if_neg b]; exact ih _
    | _ => first
      | (rw [if_neg e1, if_neg e2]; exact ih _) | (rw [if_neg e3, if_neg e4]; exact ih _) | (rw [if_neg e5, if_neg e6]; exact ih _)
      | (rw [if_neg e7, if_neg e8]; exact ih _) | (rw [if_neg e9, if_neg e10]; exact ih _)
      | (rw [if_neg e11, if_neg e12]; exact ih _) | (rw [if_neg e13, if_neg e14]; exact ih _)
      | (rw [if_neg e15, if_neg e16]; exact ih _)

/-- The length of a frame sent. -/
def outLen : Event → Option Nat
  | .frameOut f _ => some f.length
  | _ => none

theorem run_lengths {σ : Type} {D : Device σ} {clock : Clock} {dlog : Command → Ctx σ → List Line} {werr : Nat → Option Err} {k : Nat}
    {reads : List (Except Err Slice)} {s s' : Srv σ} {w : List Bytes} {evs : List Event} (h : RunEvents D clock dlog werr k s reads s' w evs) :
    evs.filterMap outLen = w.map List.length := by
  have hmode : ∀ m m', (modeEvents m m').filterMap outLen = [] := by
    intro m m'
    rw [modeEvents]
    split <;> rfl
  have hin : ∀ {m m' l' cmds evs}, InEvents m l' m' cmds evs → evs.filterMap outLen = [] := by
    intro m m' l' cmds evs h
    induction h with
    | nil => rfl
    | bad _ _ ih => exact ih
    | packet _ _ ih => simp only [List.filterMap_cons, outLen, List.filterMap_append, hmode, ih, List.append_nil]
  have hout : ∀ {k m cmds m' w evs}, OutEvents werr k m cmds m' w evs → evs.filterMap outLen = w.map List.length := by
    intro k m cmds m' w evs h
    induction h with
    | nil => rfl
    | cons _ _ _ _ ih => simp only [List.filterMap_cons, outLen, List.filterMap_append, hmode, ih, List.nil_append, List.map_cons]
  have hhan : ∀ {cmds c c' news evs}, HandleEvents D clock dlog cmds c c' news evs → evs.filterMap outLen = [] := by
    intro cmds c c' news evs h
    induction h with
    | nil => rfl
    | cons _ _ ih =>
      rw [List.filterMap_append, ih, List.append_nil, handlerEvents]
      split
      · rw [List.filterMap_map]
        exact List.filterMap_eq_nil_iff.2 fun _ _ => rfl
      · split <;> rfl
  induction h with
  | done => rfl
  | eof => rfl
  | error _ _ ih => exact ih
  | frame _ h1 h2 h3 _ ih =>
    simp only [List.filterMap_cons, outLen, List.filterMap_append, hin h1, hhan h2, hout h3, ih, List.nil_append, List.map_append]

/-- C82. The lengths shown for the frames sent are those of the frames handed to the transport, one line for each, in order.
Missing: that they are the lengths of what is sent; an empty frame is shown but not sent, see `C82_fails`. -/
theorem C82_lengths_partial {σ : Type} (D : Device σ) (clock : Clock) (dlog : Command → Ctx σ → List Line) (hd : Modest dlog)
    (werr : Nat → Option Err) (k : Nat) (reads : List (Except Err Slice)) (s s' : Srv σ) (w : List Bytes) (ls : List Line)
    (h : framesLogged D clock dlog werr k reads s = .ret (s', w, ls)) :
    ls.filterMap (lenShown ">> FRAME") = w.map List.length := by
  obtain ⟨evs, h1, h2⟩ := C82_log D clock dlog werr k reads s s' w ls h
  rw [← run_lengths h1]
  have hdev : ∀ l', .device l' ∈ evs → l'.message ≠ ascii ">> FRAME" := by
    intro l' hm
    obtain ⟨cmd, c, hm⟩ := device_mem h1 hm
    have := hd cmd c l' hm
    simp only [List.mem_cons, not_or] at this
    exact this.1
  clear h h1
  have e1 : ascii "<< " ++ ascii "FRAME" ≠ ascii ">> FRAME" := by decide +kernel
  have e2 : ascii "<< " ++ ascii "PACKET" ≠ ascii ">> FRAME" := by decide +kernel
  have e3 : ascii "<< " ++ ascii "CMD" ≠ ascii ">> FRAME" := by decide +kernel
  have e4 : ascii "Lingo SimpleRemote is not supported yet" ≠ ascii ">> FRAME" := by decide +kernel
  have e5 : ascii ">> CMD" ≠ ascii ">> FRAME" := by decide +kernel
  have e6 : ascii ">> PACKET" ≠ ascii ">> FRAME" := by decide +kernel
  have e7 : ascii "EOF" ≠ ascii ">> FRAME" := by decide +kernel
  have e8 : ascii "Enabling transaction support" ≠ ascii ">> FRAME" := by decide +kernel
  have e9 : ascii "Disabling transaction support" ≠ ascii ">> FRAME" := by decide +kernel
  induction h2 with
  | nil => rfl
  | @cons ev l evs ls hs _ ih =>
    have ih := ih fun l' hm => hdev l' (by simp [hm])
    have : lenShown ">> FRAME" l = outLen ev := by
      rw [lenShown]
      cases hs with
      | frameOut => rw [if_pos rfl]; rfl
      | frameOutErr => rw [if_pos rfl]; rfl
      | device => rw [if_neg (hdev l (by simp))]; rfl
      | _ => first
        | (rw [if_neg e1]; rfl) | (rw [if_neg e2]; rfl) | (rw [if_neg e3]; rfl) | (rw [if_neg e4]; rfl) | (rw [if_neg e5]; rfl)
        | (rw [if_neg e6]; rfl) | (rw [if_neg e7]; rfl) | (rw [if_neg e8]; rfl) | (rw [if_neg e9]; rfl)
    rw [List.filterMap_cons, List.filterMap_cons, this, ih]

/-- C82 fails for what reaches the accessory: asked for its focus application (00 65), the server reports a frame sent, at the level
of information, though no report is written for it: writing its empty frame does nothing and returns no error. -/
theorem C82_fails {σ : Type} (D : Device σ) (clock : Clock) (dlog : Command → Ctx σ → List Line) (dev : σ) :
    (∃ s' ls, framesLogged D clock dlog (fun _ => none) 0 [.ok ⟨[0x55, 0x02, 0x00, 0x65, 0x99], []⟩] (Srv.init dev) = .ret (s', [[]], ls) ∧
      ⟨4, ascii ">> FRAME", [("len", .num 0)]⟩ ∈ ls) ∧
    ∀ fuel fails log, Hid.writeFrameFor (fuel + 1) Hid.defaultReportDefs fails log [] = some (.ret (log, none)) := by
  refine ⟨?_, fun fuel fails log => rfl⟩
  have h3 : handlePacket D clock ⟨TypeId.id (.gen .GetNowPlayingFocusApp), none, .ptr (.gen .GetNowPlayingFocusApp) ()⟩
      (Srv.init dev).ctx = .ret { (Srv.init dev).ctx with out := [⟨TypeId.id (.gen .RetNowPlayingFocusApp), none,
        .ptr (.gen .RetNowPlayingFocusApp) (stringToBytes [], ())⟩] } := by
    rw [handlePacket_general _ _ _ _ (by decide +kernel)]
    simp only [afterAudio, authComplete, Bool.false_eq_true, if_false, handleGeneral, respond_eq]
    rfl
  have h2 : readCommands false ⟨[0x55, 0x02, 0x00, 0x65, 0x99], []⟩ =
      .ret (false, [⟨TypeId.id (.gen .GetNowPlayingFocusApp), none, .ptr (.gen .GetNowPlayingFocusApp) ()⟩]) := by
    decide +kernel
  have hs := readLogged_same (ascii "<< ") false ⟨[0x55, 0x02, 0x00, 0x65, 0x99], []⟩
  rw [h2] at hs
  cases ha : readLogged (ascii "<< ") false ⟨[0x55, 0x02, 0x00, 0x65, 0x99], []⟩ with
  | panic => rw [ha] at hs; cases hs
  | ret a =>
    obtain ⟨m, cmds, la⟩ := a
    rw [ha] at hs
    simp only [Out.bind_ret, Out.ret.injEq, Prod.mk.injEq] at hs
    obtain ⟨rfl, rfl⟩ := hs
    simp only [framesLogged, frameLogged, handleLogged, show (Srv.init dev).mode = false from rfl, ha, Out.bind_ret,
      show ({ (Srv.init dev).ctx with out := [] } : Ctx σ) = (Srv.init dev).ctx from rfl, h3]
    have hsend : sendLogged (fun _ => none) 0 false [⟨TypeId.id (.gen .RetNowPlayingFocusApp), none,
        .ptr (.gen .RetNowPlayingFocusApp) (stringToBytes [], ())⟩] =
        (false, [[]], [logCmd ⟨TypeId.id (.gen .RetNowPlayingFocusApp), none, .ptr (.gen .RetNowPlayingFocusApp) (stringToBytes [], ())⟩
          none (ascii ">> CMD"), ⟨2, ascii ">> PACKET", [("len", .num 0), ("error", .err .invalidType)]⟩,
          ⟨4, ascii ">> FRAME", [("len", .num 0)]⟩]) := by rfl
    rw [hsend]
    exact ⟨_, _, rfl, by simp⟩

/-- A run: a read that fails, a request that switches transactions on (its answer cannot be written), a packet with a bad
checksum, a request of the simple remote lingo, the end. -/
example : Modest (fun (_ : Command) (_ : Ctx DevGeneral) => []) ∧
    (framesLogged devGeneral (fun _ => ⟨2020, 1, 1, 0, 0⟩) (fun _ _ => []) (fun n => if n = 0 then some .shortWrite else none) 0
      [.error .unexpectedEOF, .ok ⟨[0x55, 0x04, 0x00, 0x38, 0x00, 0x01, 0xC3], []⟩, .ok ⟨[0x55, 0x02, 0x00, 0x07, 0x00], []⟩,
       .ok ⟨[0x55, 0x05, 0x02, 0x00, 0x00, 0x07, 0x01, 0xF1], []⟩, .error .eof] (Srv.init DevGeneral.zero) >>= fun x => .ret x.2) =
      .ret ([[85, 6, 0, 2, 0, 1, 0, 56, 191]],
        [⟨2, ascii "<< FRAME", [("len", .num 0), ("error", .err .unexpectedEOF)]⟩,
         ⟨4, ascii "<< FRAME", [("len", .num 7)]⟩,
         ⟨4, ascii "<< PACKET", [("len", .num 4)]⟩,
         ⟨3, ascii "Enabling transaction support", []⟩,
         ⟨4, ascii "<< CMD", [("id", .text (ascii "0x00,0x38")), ("trx", .text (ascii "0x0001")), ("type", .text (ascii "*general.StartIDPS"))]⟩,
         ⟨4, ascii ">> CMD", [("id", .text (ascii "0x00,0x02")), ("trx", .text (ascii "0x0001")), ("type", .text (ascii "*general.ACK"))]⟩,
         ⟨4, ascii ">> PACKET", [("len", .num 6)]⟩,
         ⟨2, ascii ">> FRAME", [("len", .num 9), ("error", .err .shortWrite)]⟩,
         ⟨4, ascii "<< FRAME", [("len", .num 5)]⟩,
         ⟨2, ascii "<< PACKET", [("len", .num 0), ("error", .err .checksum)]⟩,
         ⟨4, ascii "<< FRAME", [("len", .num 8)]⟩,
         ⟨4, ascii "<< PACKET", [("len", .num 5)]⟩,
         ⟨4, ascii "<< CMD", [("id", .text (ascii "0x02,0x00")), ("trx", .text (ascii "0x0007")),
           ("type", .text (ascii "*simpleremote.ContextButtonStatus"))]⟩,
         ⟨3, ascii "Lingo SimpleRemote is not supported yet", []⟩,
         ⟨3, ascii "EOF", []⟩]) := by
  refine ⟨fun _ _ _ h => (by cases h), ?_⟩
  decide +kernel

end Props
