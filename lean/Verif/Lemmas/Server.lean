import Verif.Spec.Server
import Verif.Props.Packet
import Verif.Props.Serde
import Verif.Lemmas.Handlers

/-! Lemmas about the server loop. -/

namespace Ipod
open Go Spec

theorem readCommands_eq (m : Bool) (frame : Slice) :
    readCommands m frame =
      match readPacket frame with
      | .panic => .panic
      | .ret (rest, .error e) => if e = .eof then .ret (m, []) else readCommands m rest
      | .ret (rest, .ok pkt) =>
        unmarshalCmd m pkt >>= fun x => readCommands x.1 rest >>= fun y => .ret (y.1, x.2.1 :: y.2) := by
  rw [readCommands]
  split <;> rename_i h <;> rw [h]

theorem readPacket_overrun {j d spare : Bytes} (hj : Filler j) (h : Overruns spare d) :
    readPacket ⟨j ++ 0x55 :: d, spare⟩ = .panic := by
  obtain ⟨hdr, body, n, rfl, h1, h2, h3, h4⟩ := h
  exact (Props.C06_panics_iff _ _).2 ⟨j, hdr, body, n, rfl, hj, h1, h2, h3, h4⟩

theorem filler_unique {j j' d d' : Bytes} (hj : Filler j) (hj' : Filler j') (h : j ++ 0x55 :: d = j' ++ 0x55 :: d') :
    j = j' ∧ d = d' := by
  have h1 := indexStart_append j d hj
  rw [h, indexStart_append j' d' hj'] at h1
  have hl : j.length = j'.length := (Option.some.inj h1).symm
  obtain ⟨e1, e2⟩ := List.append_inj h hl
  exact ⟨e1, by simpa using e2⟩

theorem readPacket_skip {j d spare : Bytes} (hj : Filler j) (hp : ¬ PacketHere (0x55 :: d)) (ho : ¬ Overruns spare d) :
    ∃ e, e ≠ .eof ∧ readPacket ⟨j ++ 0x55 :: d, spare⟩ = .ret (⟨d, spare⟩, .error e) := by
  cases hr : readPacket ⟨j ++ 0x55 :: d, spare⟩ with
  | panic =>
    obtain ⟨j', hdr, body, n, e, hj', h⟩ := (Props.C06_panics_iff _ _).1 hr
    obtain ⟨rfl, rfl⟩ := filler_unique hj hj' e
    exact absurd ⟨hdr, body, n, rfl, h⟩ ho
  | ret x =>
    obtain ⟨f, r⟩ := x
    cases r with
    | ok p =>
      obtain ⟨_, j', w, hj', hw, e⟩ := (Props.C03_success_iff _ _ _ _).1 hr
      obtain ⟨hdr, ck, hh, rfl, hs⟩ := hw
      have e' : j ++ 0x55 :: d = j' ++ 0x55 :: ((hdr ++ p ++ [ck]) ++ f.data) := by rw [e]; simp
      obtain ⟨_, rfl⟩ := filler_unique hj hj' e'
      exact absurd ⟨p, _, f.data, ⟨hdr, ck, hh, rfl, hs⟩, by simp⟩ hp
    | error e =>
      have h5 := (Props.C05_progress _ _ _ _ hr).1
      refine ⟨e, ?_, ?_⟩
      · rintro rfl
        exact h5.1 rfl (by simp)
      · rw [readPacket_start j d spare hj] at hr
        by_cases h3 : d.length < 3
        · rw [afterStart_short d spare h3] at hr; cases hr; rfl
        · obtain ⟨off, len, hh, _⟩ := parseHeader_ok d (by omega)
          rw [afterStart_header d spare off len hh] at hr
          split at hr
          · cases hr
          · split at hr
            · cases hr; rfl
            · split at hr <;> cases hr

/-- Every frame has a scan. -/
theorem scan_total (spare d : Bytes) : ∃ ps b, Scan spare d ps b := by
  induction hn : d.length using Nat.strongRecOn generalizing d with
  | ind n ih =>
    subst hn
    rcases filler_or_start d with hf | ⟨j, r, rfl, hj⟩
    · exact ⟨_, _, .done hf⟩
    · by_cases ho : Overruns spare r
      · exact ⟨_, _, .crash hj ho⟩
      · by_cases hp : PacketHere (0x55 :: r)
        · obtain ⟨p, w, rest, hw, e⟩ := hp
          have hl : rest.length < (j ++ 0x55 :: r).length := by
            have := congrArg List.length e
            obtain ⟨_, _, _, rfl, _⟩ := hw
            simp at this ⊢; omega
          obtain ⟨ps, b, h⟩ := ih _ hl rest rfl
          refine ⟨p :: ps, b, ?_⟩
          rw [e, ← List.append_assoc]
          exact .packet hj hw h
        · obtain ⟨ps, b, h⟩ := ih r.length (by simp; omega) r rfl
          exact ⟨_, _, .skip hj hp ho h⟩

/-- A frame has only one scan. -/
theorem scan_unique {spare d : Bytes} {ps ps' : List Bytes} {b b' : Bool} (h : Scan spare d ps b)
    (h' : Scan spare d ps' b') : ps = ps' ∧ b = b' := by
  induction h generalizing ps' b' with
  | done hf =>
    have r := readPacket_filler _ spare hf
    cases h' with
    | done => exact ⟨rfl, rfl⟩
    | crash hj ho => rw [readPacket_overrun hj ho] at r; cases r
    | packet hj hw hs => rw [readPacket_isPacket _ _ _ _ spare hj hw] at r; simp at r
    | skip hj hp ho hs =>
      obtain ⟨e, he, r'⟩ := readPacket_skip hj hp ho
      rw [r'] at r
      simp only [Out.ret.injEq, Prod.mk.injEq, Except.error.injEq] at r
      exact absurd r.2 he
  | @crash j d hj ho =>
    have r := readPacket_overrun hj ho
    generalize hd : j ++ 0x55 :: d = d0 at r h'
    cases h' with
    | done hf => rw [readPacket_filler _ spare hf] at r; cases r
    | crash => exact ⟨rfl, rfl⟩
    | packet hj hw hs => rw [readPacket_isPacket _ _ _ _ spare hj hw] at r; cases r
    | skip hj hp ho hs =>
      obtain ⟨e, he, r'⟩ := readPacket_skip hj hp ho
      rw [r'] at r; cases r
  | @packet j w rest p ps b hj hw hs ih =>
    have r := readPacket_isPacket j w p rest spare hj hw
    generalize hd : j ++ w ++ rest = d0 at r h'
    cases h' with
    | done hf => rw [readPacket_filler _ spare hf] at r; cases r
    | crash hj ho => rw [readPacket_overrun hj ho] at r; cases r
    | packet hj hw hs =>
      rw [readPacket_isPacket _ _ _ _ spare hj hw] at r; cases r
      obtain ⟨rfl, rfl⟩ := ih hs
      exact ⟨rfl, rfl⟩
    | skip hj hp ho hs =>
      obtain ⟨e, he, r'⟩ := readPacket_skip hj hp ho
      rw [r'] at r; cases r
  | @skip j d ps b hj hp ho hs ih =>
    obtain ⟨e, he, r⟩ := readPacket_skip hj hp ho
    generalize hd : j ++ 0x55 :: d = d0 at r h'
    cases h' with
    | done hf => rw [readPacket_filler _ spare hf] at r; cases r; exact absurd rfl he
    | crash hj ho => rw [readPacket_overrun hj ho] at r; cases r
    | packet hj hw hs => rw [readPacket_isPacket _ _ _ _ spare hj hw] at r; cases r
    | skip hj hp ho hs =>
      obtain ⟨e, he, r'⟩ := readPacket_skip hj hp ho
      rw [r'] at r; cases r
      exact ih hs

/-- Decoding a list of packets. -/
def decodeAll (m : Bool) : List Bytes → Out (Bool × List Command)
  | [] => .ret (m, [])
  | p :: ps => unmarshalCmd m p >>= fun x => decodeAll x.1 ps >>= fun y => .ret (y.1, x.2.1 :: y.2)

/-- The packet loop, in terms of the scan. -/
theorem readCommands_scan {spare d : Bytes} {ps : List Bytes} {b : Bool} (h : Scan spare d ps b) (m : Bool) :
    readCommands m ⟨d, spare⟩ = decodeAll m ps >>= fun x => if b then .panic else .ret x := by
  induction h generalizing m with
  | done hf => rw [readCommands_eq, readPacket_filler _ spare hf]; rfl
  | crash hj ho => rw [readCommands_eq, readPacket_overrun hj ho]; rfl
  | @packet j w rest p ps b hj hw hs ih =>
    rw [readCommands_eq, readPacket_isPacket _ _ _ _ spare hj hw]
    simp only [decodeAll]
    cases unmarshalCmd m p with
    | panic => rfl
    | ret x =>
      simp only [Out.bind_ret, ih]
      cases decodeAll x.1 ps with
      | panic => rfl
      | ret y => cases b <;> rfl
  | skip hj hp ho hs ih =>
    obtain ⟨e, he, r⟩ := readPacket_skip hj hp ho
    rw [readCommands_eq, r]
    simp only [if_neg he, ih]

theorem decodeAll_ret {m : Bool} {ps : List Bytes} {m' : Bool} {cmds : List Command} :
    decodeAll m ps = .ret (m', cmds) ↔ Decoded m ps m' cmds := by
  induction ps generalizing m m' cmds with
  | nil =>
    constructor
    · intro h; cases h; exact .nil
    · intro h; cases h; rfl
  | cons p ps ih =>
    constructor
    · intro h
      simp only [decodeAll] at h
      cases hu : unmarshalCmd m p with
      | panic => rw [hu] at h; cases h
      | ret x =>
        rw [hu] at h
        simp only [Out.bind_ret] at h
        cases hd : decodeAll x.1 ps with
        | panic => rw [hd] at h; cases h
        | ret y => rw [hd] at h; cases h; exact .cons hu (ih.1 hd)
    · intro h
      cases h with
      | cons hu hd => simp only [decodeAll, hu, Out.bind_ret, ih.2 hd]

theorem decodeAll_panic {m : Bool} {ps : List Bytes} :
    decodeAll m ps = .panic ↔
      ∃ ps1 p ps2 m1 cmds, ps = ps1 ++ p :: ps2 ∧ Decoded m ps1 m1 cmds ∧ unmarshalCmd m1 p = .panic := by
  induction ps generalizing m with
  | nil => simp [decodeAll]
  | cons p ps ih =>
    simp only [decodeAll]
    cases hu : unmarshalCmd m p with
    | panic =>
      simp only [Out.bind_panic, true_iff]
      exact ⟨[], p, ps, m, [], rfl, .nil, hu⟩
    | ret x =>
      simp only [Out.bind_ret]
      constructor
      · intro h
        cases hd : decodeAll x.1 ps with
        | ret y => rw [hd] at h; cases h
        | panic =>
          obtain ⟨ps1, q, ps2, m1, cmds, rfl, h1, h2⟩ := ih.1 hd
          exact ⟨p :: ps1, q, ps2, m1, x.2.1 :: cmds, rfl, .cons hu h1, h2⟩
      · rintro ⟨ps1, q, ps2, m1, cmds, e, h1, h2⟩
        cases h1 with
        | nil => cases e; rw [hu] at h2; cases h2
        | cons hu' h1 =>
          cases e
          rw [hu] at hu'; cases hu'
          rw [ih.2 ⟨_, _, _, _, _, rfl, h1, h2⟩]; rfl

/-- The handlers never panic. -/
theorem handleAll_ret {σ : Type} (D : Device σ) (clock : Clock) (cmds : List Command) (c : Ctx σ) :
    ∃ c' news, handleAll D clock cmds c = .ret c' ∧ HandledEach D clock cmds c c' news ∧
      c'.out = c.out ++ news.flatten := by
  induction cmds generalizing c with
  | nil => exact ⟨c, [], rfl, .nil, by simp⟩
  | cons cmd cmds ih =>
    obtain ⟨c1, new, h1, h2, _⟩ := handlePacket_emits D clock cmd c
    obtain ⟨c2, news, h3, h4, h5⟩ := ih c1
    refine ⟨c2, _ :: news, ?_, .cons ⟨h1, h2⟩ h4, ?_⟩
    · rw [handleAll, h1]; exact h3
    · rw [h5, h2]; simp

theorem handledEach_unique {σ : Type} {D : Device σ} {clock : Clock} {cmds : List Command} {c c1 c2 : Ctx σ}
    {n1 n2 : List (List Command)} (h1 : HandledEach D clock cmds c c1 n1) (h2 : HandledEach D clock cmds c c2 n2) :
    c1 = c2 ∧ n1 = n2 := by
  induction h1 generalizing c2 n2 with
  | nil => cases h2; exact ⟨rfl, rfl⟩
  | cons a _ ih =>
    cases h2 with
    | cons b h2 =>
      have e := a.1.symm.trans b.1
      cases e
      have e := a.2.symm.trans b.2
      have e := List.append_cancel_left e
      obtain ⟨rfl, rfl⟩ := ih h2
      exact ⟨rfl, by rw [e]⟩

theorem decoded_unique {m : Bool} {ps : List Bytes} {m1 m2 : Bool} {c1 c2 : List Command}
    (h1 : Decoded m ps m1 c1) (h2 : Decoded m ps m2 c2) : m1 = m2 ∧ c1 = c2 := by
  have := (decodeAll_ret.2 h1).symm.trans (decodeAll_ret.2 h2)
  cases this; exact ⟨rfl, rfl⟩

theorem decoded_received {m m' : Bool} {ps : List Bytes} {cmds : List Command} (h : Decoded m ps m' cmds) :
    ∀ c ∈ cmds, Received c := by
  induction h with
  | nil => simp
  | cons hu _ ih =>
    intro c hc
    rcases List.mem_cons.1 hc with rfl | hc
    · exact ⟨_, _, _, _, hu⟩
    · exact ih c hc

/-- The frame written for the result of an encoding. -/
def frameOf (r : Except Err Bytes) : Bytes :=
  (writePacket newPacketWriter (match r with | .ok p => p | .error _ => [])).1

theorem sendAll_eq (m : Bool) (cmds : List Command) :
    ∃ m' rs, Encoded m cmds m' rs ∧ sendAll m cmds = (m', rs.map frameOf) := by
  induction cmds generalizing m with
  | nil => exact ⟨m, [], .nil, rfl⟩
  | cons cmd cmds ih =>
    obtain ⟨m', rs, h1, h2⟩ := ih (marshalCmd m cmd).1
    refine ⟨m', _ :: rs, .cons rfl h1, ?_⟩
    simp only [sendAll, h2]
    rfl

theorem encoded_unique {m : Bool} {cmds : List Command} {m1 m2 : Bool} {r1 r2 : List (Except Err Bytes)}
    (h1 : Encoded m cmds m1 r1) (h2 : Encoded m cmds m2 r2) : m1 = m2 ∧ r1 = r2 := by
  induction h1 generalizing m2 r2 with
  | nil => cases h2; exact ⟨rfl, rfl⟩
  | cons a _ ih =>
    cases h2 with
    | cons b h2 =>
      have e := a.symm.trans b
      cases e
      obtain ⟨rfl, rfl⟩ := ih h2
      exact ⟨rfl, rfl⟩

/-- One frame, taken apart. -/
theorem processFrame_ret {σ : Type} {D : Device σ} {clock : Clock} {s s' : Srv σ} {d spare : Bytes} {w : List Bytes}
    (h : processFrame D clock s ⟨d, spare⟩ = .ret (s', w)) :
    ∃ ps m1 cmds c news rs, Scan spare d ps false ∧ Decoded s.mode ps m1 cmds ∧
      HandledEach D clock cmds { s.ctx with out := [] } c news ∧ Encoded m1 news.flatten s'.mode rs ∧
      w = rs.map frameOf ∧ s'.ctx = { c with out := [] } := by
  obtain ⟨ps, b, hs⟩ := scan_total spare d
  simp only [processFrame, readCommands_scan hs] at h
  cases hd : decodeAll s.mode ps with
  | panic => rw [hd] at h; cases h
  | ret x =>
    rw [hd] at h
    simp only [Out.bind_ret] at h
    cases b with
    | true => cases h
    | false =>
      obtain ⟨m1, cmds⟩ := x
      simp only [Bool.false_eq_true, if_false, Out.bind_ret] at h
      obtain ⟨c, news, h1, h2, h3⟩ := handleAll_ret D clock cmds { s.ctx with out := [] }
      rw [h1] at h
      simp only [Out.bind_ret, List.nil_append] at h h3
      obtain ⟨m', rs, h4, h5⟩ := sendAll_eq m1 c.out
      rw [h5] at h
      cases h
      exact ⟨ps, m1, cmds, c, news, rs, hs, decodeAll_ret.1 hd, h2, h3 ▸ h4, rfl, rfl⟩

/-- One frame: when it panics. -/
theorem processFrame_panic {σ : Type} {D : Device σ} {clock : Clock} {s : Srv σ} {d spare : Bytes}
    {ps : List Bytes} {b : Bool} (hs : Scan spare d ps b) :
    processFrame D clock s ⟨d, spare⟩ = .panic ↔
      b = true ∨ ∃ ps1 p ps2 m1 cmds, ps = ps1 ++ p :: ps2 ∧ Decoded s.mode ps1 m1 cmds ∧ unmarshalCmd m1 p = .panic := by
  rw [← decodeAll_panic]
  simp only [processFrame, readCommands_scan hs]
  cases hd : decodeAll s.mode ps with
  | panic => simp
  | ret x =>
    simp only [Out.bind_ret]
    cases b with
    | true => simp
    | false =>
      obtain ⟨c, news, h1, _⟩ := handleAll_ret D clock x.2 { s.ctx with out := [] }
      simp [h1]

end Ipod
