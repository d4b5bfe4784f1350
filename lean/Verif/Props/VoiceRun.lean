import Verif.Spec.Voice
import Verif.Lemmas.Gadget
import Verif.Lemmas.EmulatorWire
import Verif.Props.LogText
import Verif.Props.Server

/-! What `ipod serve` does and says, step by step (for C116). -/

namespace Props
open Go Spec Ipod Ipod.Hid Ipod.Trace Ipod.Log

/-! ### a frame is read -/

theorem readVoiced_eq (lib : BinTexts) (pre : Bytes) (mode : Bool) (frame : Slice) : readVoiced lib pre mode frame =
    match readPacket frame with
    | .panic => ([], none)
    | .ret (rest, .error e) =>
      if e = .eof then ([], some (mode, []))
      else
        let y := readVoiced lib pre mode rest
        (sayLen 0 (some (plainText e)) (pre ++ ascii "PACKET") :: y.1, y.2)
    | .ret (rest, .ok pkt) =>
      match unmarshalCmd mode pkt, unmarshalText lib mode pkt with
      | .ret x, .ret t =>
        let y := readVoiced lib pre x.1 rest
        (sayLen pkt.length none (pre ++ ascii "PACKET") :: (modeLines mode x.1 ++ sayCmd x.2.1 t (pre ++ ascii "CMD") :: y.1),
          y.2.map fun z => (z.1, x.2.1 :: z.2))
      | _, _ => (sayLen pkt.length none (pre ++ ascii "PACKET") :: warned mode pkt, none) := by
  rw [readVoiced]
  split
  · simp_all
  · simp_all
  · simp_all
    rfl

/-- No warning before a panic: the packets that cause it do not change the mode. -/
theorem warned_malformed {m : Bool} {p : Bytes} (h : Malformed m p) : warned m p = [] := by
  have k1 : ∀ (x : UInt8) (r : Bytes), unmarshalLingoCmdID (0x00 :: x :: r) = (.ok (newLingoCmdID 0 x.toUInt16), r) := by
    intro x r
    rfl
  have k2 : ∀ m, handleCmdID m (newLingoCmdID 0 0x64) = m := by intro m; cases m <;> decide +kernel
  have k3 : ∀ m, handleCmdID m (newLingoCmdID 0 0x39) = m := by intro m; cases m <;> decide +kernel
  obtain ⟨trx, _, ⟨body, rfl, _⟩ | ⟨n, r, rfl, _⟩⟩ := h
  · simp [warned, k1, k2, modeLines]
  · simp [warned, k1, k3, modeLines]

/-- The same as `readSaid`, where that returns; else the lines before the crash. -/
theorem readVoiced_cases (lib : BinTexts) (m : Bool) (d spare : Bytes) :
    (∃ m' cmds ls, readSaid lib (ascii "<< ") m ⟨d, spare⟩ = .ret (m', cmds, ls) ∧
      readVoiced lib (ascii "<< ") m ⟨d, spare⟩ = (ls, some (m', cmds))) ∨
    ∃ ls evs, readSaid lib (ascii "<< ") m ⟨d, spare⟩ = .panic ∧ readVoiced lib (ascii "<< ") m ⟨d, spare⟩ = (ls, none) ∧
      Breaks lib spare m d evs ∧ SaidAll "<< " evs ls := by
  have t1 : plainText .unexpectedEOF = ascii "unexpected EOF" := by decide +kernel
  have t2 : plainText Err.checksum = ascii "invalid checksum" := by decide +kernel
  obtain ⟨ps, b, hs⟩ := scan_total spare d
  induction hs generalizing m with
  | done hf =>
    left
    exact ⟨_, _, _, by rw [readSaid_eq, readPacket_filler _ spare hf]; rfl, by rw [readVoiced_eq, readPacket_filler _ spare hf]; rfl⟩
  | crash hj ho =>
    right
    exact ⟨_, _, by rw [readSaid_eq, readPacket_overrun hj ho], by rw [readVoiced_eq, readPacket_overrun hj ho], .overrun hj ho, .nil⟩
  | @packet j w rest p ps b hj hw hs ih =>
    obtain ⟨a1, a2, a3⟩ := C103_agrees lib m p
    cases hu : unmarshalCmd m p with
    | panic =>
      have hm := (malformed_iff m p).1 hu
      right
      refine ⟨[sayLen p.length none (ascii "<< " ++ ascii "PACKET")], _, ?_, ?_, .malformed hj hw hm, ?_⟩
      rotate_left
      · rw [readVoiced_eq, readPacket_isPacket _ _ _ _ spare hj hw]
        simp only [hu, warned_malformed hm]
      · exact .cons (ev := (_, none)) .packetIn .nil
      · rw [readSaid_eq, readPacket_isPacket _ _ _ _ spare hj hw]
        simp only [hu]
        rfl
    | ret x =>
      obtain ⟨m1, cmd, err⟩ := x
      cases ht : unmarshalText lib m p with
      | panic => rw [a1.2 ht] at hu; cases hu
      | ret t =>
        have e1 : readSaid lib (ascii "<< ") m ⟨j ++ w ++ rest, spare⟩ = readSaid lib (ascii "<< ") m1 ⟨rest, spare⟩ >>= fun y =>
            .ret (y.1, cmd :: y.2.1,
              sayLen p.length none (ascii "<< " ++ ascii "PACKET") :: (modeLines m m1 ++ sayCmd cmd t (ascii "<< " ++ ascii "CMD") :: y.2.2)) := by
          rw [readSaid_eq, readPacket_isPacket _ _ _ _ spare hj hw]
          simp only [hu, ht, Out.bind_ret]
        have e2 : readVoiced lib (ascii "<< ") m ⟨j ++ w ++ rest, spare⟩ =
            (sayLen p.length none (ascii "<< " ++ ascii "PACKET") :: (modeLines m m1 ++ sayCmd cmd t (ascii "<< " ++ ascii "CMD") ::
              (readVoiced lib (ascii "<< ") m1 ⟨rest, spare⟩).1),
              (readVoiced lib (ascii "<< ") m1 ⟨rest, spare⟩).2.map fun z => (z.1, cmd :: z.2)) := by
          rw [readVoiced_eq, readPacket_isPacket _ _ _ _ spare hj hw]
          simp only [hu, ht]
        rcases ih m1 with ⟨m', cmds, ls, h1, h2⟩ | ⟨ls, evs, h1, h2, h3, h4⟩
        · left
          rw [h1] at e1
          rw [h2] at e2
          exact ⟨_, _, _, e1, e2⟩
        · right
          rw [h1] at e1
          rw [h2] at e2
          cases t with
          | none =>
            obtain ⟨_, _, h5⟩ := a2.2 ht
            rw [hu] at h5
            cases h5
            refine ⟨_, _, e1, e2, .packet hj hw hu h3, ?_⟩
            have := saidAll_append (saidAll_silent (ShownAll.cons (ShownAs.packetIn (p := p)) (shownAll_append (modeLines_shown "<< " m m1)
              (.cons (ShownAs.cmdIn (commandFields_fields cmd)) .nil)))) h4
            simpa [sayLen, sayCmd, infoLevel, errorLevel, withText] using this
          | some x =>
            obtain ⟨_, _, e, h5⟩ := a3.2 ⟨x, ht⟩
            rw [hu] at h5
            cases h5
            refine ⟨_, _, e1, e2, .refused hj hw hu ((C103_texts lib m p x).1 ht) h3, ?_⟩
            have := saidAll_append (saidAll_silent (ShownAll.cons (ShownAs.packetIn (p := p)) (modeLines_shown "<< " m m1)))
              (saidCmd cmd e x h4)
            simpa [sayLen, sayCmd, infoLevel, errorLevel, withText] using this
  | @skip j d ps b hj hp ho hs ih =>
    have hne : (if d.length < 3 then (.unexpectedEOF : Err) else Err.checksum) ≠ .eof := by by_cases h3 : d.length < 3 <;> simp [h3]
    have e1 : readSaid lib (ascii "<< ") m ⟨j ++ 0x55 :: d, spare⟩ = readSaid lib (ascii "<< ") m ⟨d, spare⟩ >>= fun y =>
        .ret (y.1, y.2.1, sayLen 0 (some (plainText (if d.length < 3 then .unexpectedEOF else Err.checksum)))
          (ascii "<< " ++ ascii "PACKET") :: y.2.2) := by
      rw [readSaid_eq, readPacket_skipped hj hp ho]
      dsimp only
      rw [if_neg hne]
    have e2 : readVoiced lib (ascii "<< ") m ⟨j ++ 0x55 :: d, spare⟩ =
        (sayLen 0 (some (plainText (if d.length < 3 then .unexpectedEOF else Err.checksum)))
          (ascii "<< " ++ ascii "PACKET") :: (readVoiced lib (ascii "<< ") m ⟨d, spare⟩).1, (readVoiced lib (ascii "<< ") m ⟨d, spare⟩).2) := by
      rw [readVoiced_eq, readPacket_skipped hj hp ho]
      dsimp only
      rw [if_neg hne]
    rcases ih m with ⟨m', cmds, ls, h1, h2⟩ | ⟨ls, evs, h1, h2, h3, h4⟩
    · left
      rw [h1] at e1
      rw [h2] at e2
      exact ⟨_, _, _, e1, e2⟩
    · right
      rw [h1] at e1
      rw [h2] at e2
      by_cases hl : d.length < 3
      · rw [if_pos hl, t1] at e2
        exact ⟨_, _, e1, e2, .short (e := .unexpectedEOF) hj hl h3, .cons (ev := (_, some _)) .packetInErr h4⟩
      · rw [if_neg hl, t2] at e2
        exact ⟨_, _, e1, e2, .damaged (e := Err.checksum) hj (by omega) hp ho h3, .cons (ev := (_, some _)) .packetInErr h4⟩

/-! ### the answers are written -/

theorem loopT_refusal {defs : List ReportDef} {fails : Nat → Option Fault} {data : Bytes} (hp : ∀ n : Nat, pick defs n .accIn ≠ none) :
    ∀ (fuel : Nat) (log : List Report) (off left : Nat) (log' : List Report) (err : Option Fault),
    writeFrameLoopT defs fails data fuel log off left = some (.ret (log', err)) →
    ∃ new, log' = log ++ new ∧ err = refusal fails log.length new := by
  intro fuel
  induction fuel with
  | zero => intro log off left log' err h; cases h
  | succ fuel ih =>
    intro log off left log' err h
    rw [writeFrameLoopT] at h
    by_cases h0 : left = 0
    · rw [if_pos h0] at h
      cases h
      exact ⟨[], by simp, rfl⟩
    · rw [if_neg h0] at h
      cases hk : pick defs left .accIn with
      | none => exact absurd hk (hp _)
      | some d =>
        rw [hk] at h
        dsimp only at h
        by_cases hm : d.maxPayload < 0
        · rw [if_pos hm] at h; cases h
        · rw [if_neg hm] at h
          cases hf : fails log.length with
          | some f' =>
            rw [hf] at h
            simp only [Option.some.injEq, Out.ret.injEq, Prod.mk.injEq] at h
            obtain ⟨rfl, rfl⟩ := h
            exact ⟨_, rfl, by simp only [refusal, hf]⟩
          | none =>
            rw [hf] at h
            obtain ⟨new, h1, h2⟩ := ih _ _ _ _ _ h
            refine ⟨_ :: new, by rw [h1, List.append_assoc]; rfl, ?_⟩
            rw [h2]
            simp only [refusal, hf, List.length_append, List.length_singleton]

theorem refusal_upTo (fails : Nat → Option Fault) (bs : List Bytes) : ∀ i,
    refusal fails i (gadgetUpToFail (errs fails) i (bs.map toReport)) = refusal fails i bs := by
  induction bs with
  | nil => intro i; rfl
  | cons b bs ih =>
    intro i
    simp only [List.map_cons, gadgetUpToFail, refusal]
    cases hf : fails i with
    | some f => simp only [errs, hf, Option.map_some, refusal]
    | none => simp only [errs, hf, Option.map_none, refusal]; exact ih (i + 1)

/-- A frame is written: the reports of the specification, up to the one that is refused, and what is said then. -/
theorem writeFrameT_table (legacy : Bool) (fails : Nat → Option Fault) (log : List Report) (frame : Bytes) :
    writeFrameT (frame.length + 1) (Cli.table legacy) fails log frame =
      some (.ret (log ++ gadgetUpToFail (errs fails) log.length ((reportsOf legacy true frame).map toReport),
        refusal fails log.length (reportsOf legacy true frame))) := by
  obtain ⟨e, he⟩ := gadget_write_frame legacy (errs fails) log frame
  have hs := C104_write_same (frame.length + 1) (Cli.table legacy) fails log frame
  rw [show (fun i => (fails i).map (·.err)) = errs fails from rfl, he] at hs
  cases hw : writeFrameT (frame.length + 1) (Cli.table legacy) fails log frame with
  | none => rw [hw] at hs; cases hs
  | some o =>
    cases o with
    | panic => rw [hw] at hs; cases hs
    | ret x =>
      obtain ⟨log', err⟩ := x
      rw [hw] at hs
      simp only [Option.map_some, Out.bind_ret, Option.some.injEq, Out.ret.injEq, Prod.mk.injEq] at hs
      have hp : ∀ n : Nat, pick (Cli.table legacy) n .accIn ≠ none := by
        intro n hn
        obtain ⟨d, hd, _⟩ := pick_table legacy n
        rw [hn] at hd
        cases hd
      obtain ⟨new, h1, h2⟩ := loopT_refusal hp _ _ _ _ _ _ hw
      have h3 := hs.1
      rw [h1, List.append_cancel_left_eq] at h3
      rw [h1, h2, h3, refusal_upTo]

theorem watched_append {a b : List Happening} {l l' : List Item} (h : Watched a l) (h' : Watched b l') : Watched (a ++ b) (l ++ l') := by
  induction h with
  | nil => exact h'
  | deed _ ih => exact .deed ih
  | said h1 _ ih => exact .said h1 ih

theorem watched_said {evs : List Said} {ls : List Line} (h : SaidAll "<< " evs ls) : Watched (evs.map .said) (ls.map .say) := by
  induction h with
  | nil => exact .nil
  | cons h1 _ ih => exact .said h1 ih

theorem watched_deeds (ds : List Deed) : Watched (ds.map .deed) ((ds.map Deed.op).map .op) := by
  induction ds with
  | nil => exact .nil
  | cons d ds ih => exact .deed ih

theorem deedOp_op : deedOp = Deed.op := by
  funext d
  cases d with
  | got r => rfl
  | put b e => cases e <;> rfl

theorem frameFor_ok {m m1 : Bool} {cmd : Command} {p : Bytes} (h : marshalCmd m cmd = (m1, .ok p)) :
    (writePacket newPacketWriter p).1 = frameFor (.ok p) :=
  frame_bytes (marshal_ne_nil (m := m) (cmd := cmd) (by rw [h]))

theorem frameFor_error (e : Err) : (writePacket newPacketWriter []).1 = frameFor (.error e) := rfl

theorem sendVoiced_cons (lib : BinTexts) (legacy : Bool) (fails : Nat → Option Fault) (log : List Report) (m m1 : Bool) (cmd : Command)
    (cmds : List Command) (out : Except Err Bytes) (h : marshalCmd m cmd = (m1, out)) :
    sendVoiced lib (Cli.table legacy) fails log m (cmd :: cmds) =
      let new := gadgetUpToFail (errs fails) log.length ((reportsOf legacy true (frameFor out)).map toReport)
      let y := sendVoiced lib (Cli.table legacy) fails (log ++ new) m1 cmds
      ((sayCmd cmd none (ascii ">> CMD") :: (modeLines m m1 ++ [sayLen (match out with
          | .ok p => p
          | .error _ => []).length (marshalText lib cmd) (ascii ">> PACKET")])).map .say ++
        (((puts (errs fails) log.length (reportsOf legacy true (frameFor out))).map Deed.op).map .op ++
        .say (sayLen (frameFor out).length ((refusal fails log.length (reportsOf legacy true (frameFor out))).map (·.text)) (ascii ">> FRAME")) :: y.1),
        y.2) := by
  have hw := writeFrameT_table legacy fails log (frameFor out)
  obtain ⟨h1, h2⟩ := ops_puts (errs fails) (reportsOf legacy true (frameFor out)) log.length (reportsOf_long _ _ _)
  rw [deedOp_op] at h1
  have hd : (log ++ gadgetUpToFail (errs fails) log.length ((reportsOf legacy true (frameFor out)).map toReport)).drop log.length =
      gadgetUpToFail (errs fails) log.length ((reportsOf legacy true (frameFor out)).map toReport) := by simp
  rw [sendVoiced]
  cases out with
  | ok p =>
    simp only [h]
    rw [frameFor_ok h, hw]
    simp only [hd, h1]
  | error e =>
    simp only [h]
    rw [frameFor_error e, hw]
    simp only [hd, h1]

theorem deviceOps_append (a b : List Item) : deviceOps (a ++ b) = deviceOps a ++ deviceOps b := by
  induction a with
  | nil => rfl
  | cons x a ih => cases x <;> simp [deviceOps, ih]

theorem deviceOps_say (ls : List Line) : deviceOps (ls.map .say) = [] := by
  induction ls with
  | nil => rfl
  | cons x a ih => exact ih

theorem deviceOps_op (os : List TOp) : deviceOps (os.map .op) = os := by
  induction os with
  | nil => rfl
  | cons x a ih => simp only [List.map_cons, deviceOps, ih]

/-- The answers: done and said as specified. -/
theorem sendVoiced_done (lib : BinTexts) (legacy : Bool) (fails : Nat → Option Fault) (cmds : List Command) : ∀ (log : List Report) (m : Bool),
    ∃ items log' m' hs, sendVoiced lib (Cli.table legacy) fails log m cmds = (items, some (log', m')) ∧
      OutDone lib legacy fails log.length m cmds log'.length m' hs ∧ Watched hs items ∧
      m' = (sendAll m cmds).1 ∧ log' = log ++ gadgetUpToFails legacy (errs fails) log.length (sendAll m cmds).2 ∧
      deviceOps items = (putsAll legacy (errs fails) log.length (sendAll m cmds).2).map Deed.op := by
  induction cmds with
  | nil => intro log m; exact ⟨[], log, m, [], rfl, .nil, .nil, rfl, by simp [sendAll, gadgetUpToFails], rfl⟩
  | cons cmd cmds ih =>
    intro log m
    obtain ⟨out, h⟩ : ∃ out, marshalCmd m cmd = ((marshalCmd m cmd).1, out) := ⟨_, rfl⟩
    generalize (marshalCmd m cmd).1 = m1 at h
    obtain ⟨h1, h2⟩ := ops_puts (errs fails) (reportsOf legacy true (frameFor out)) log.length (reportsOf_long _ _ _)
    obtain ⟨items, log', m', hs, i1, i2, i3, i4, i5, i6⟩ := ih
      (log ++ gadgetUpToFail (errs fails) log.length ((reportsOf legacy true (frameFor out)).map toReport)) m1
    have hsend : sendAll m (cmd :: cmds) = ((sendAll m1 cmds).1, frameFor out :: (sendAll m1 cmds).2) := by
      cases out with
      | ok p => simp only [sendAll, h, frameFor_ok h]
      | error e => simp only [sendAll, h, frameFor_error e]
    have hlen : (log ++ gadgetUpToFail (errs fails) log.length ((reportsOf legacy true (frameFor out)).map toReport)).length =
        log.length + (puts (errs fails) log.length (reportsOf legacy true (frameFor out))).length := by rw [List.length_append, h2]
    rw [hlen] at i2 i6
    have i5' := i5
    rw [hlen] at i5
    have ha := C103_send_agrees lib m cmd
    rw [sendVoiced_cons lib legacy fails log m m1 cmd cmds out h, hsend]
    simp only [i1]
    have hx : EncodingSays lib cmd.payload out (marshalText lib cmd) := by
      cases out with
      | ok p =>
        cases hx : marshalText lib cmd with
        | none => exact rfl
        | some x =>
          obtain ⟨e, he⟩ := ha.2 ⟨x, hx⟩
          rw [h] at he
          cases he
      | error e =>
        obtain ⟨x, hx⟩ := ha.1 ⟨e, by rw [h]⟩
        exact ⟨x, hx, (C103_send_texts lib cmd x).1 hx⟩
    refine ⟨_, log', m', _, rfl, .cons h rfl hx i2, ?_, i4, ?_, ?_⟩
    · refine watched_append ?_ (watched_append (watched_deeds _) ?_)
      · refine watched_said ?_
        rw [← List.cons_append]
        refine saidAll_append ?_ ?_
        · have := saidAll_silent (ShownAll.cons (pre := "<< ") (ShownAs.cmdOut (commandFields_fields cmd)) (modeLines_shown "<< " m m1))
          simpa [sayCmd, infoLevel] using this
        · cases out with
          | ok p =>
            rw [show marshalText lib cmd = none from hx]
            exact .cons (ev := (_, none)) .packetOut .nil
          | error e =>
            obtain ⟨x, hx, _⟩ := hx
            rw [hx]
            exact .cons (ev := (_, some _)) .packetOutErr .nil
      · exact watched_append (watched_said (sayLen_out _ _ "<< " .nil)) i3
    · rw [i5]
      simp only [gadgetUpToFails, List.append_assoc, h2]
    · rw [deviceOps_append, deviceOps_say, deviceOps_append, deviceOps_op]
      simp only [deviceOps, i6, putsAll, List.map_append, List.nil_append]

/-! ### a frame -/

theorem frameVoiced_cases {σ : Type} (D : Device σ) (clock : Clock) (dlog : Command → Ctx σ → List Line) (lib : BinTexts) (legacy : Bool)
    (fails : Nat → Option Fault) (log : List Report) (s : Srv σ) (d spare : Bytes) :
    (∃ ls evs, frameVoiced D clock dlog lib (Cli.table legacy) fails log s ⟨d, spare⟩ = (ls.map .say, none) ∧
      Breaks lib spare s.mode d evs ∧ SaidAll "<< " evs ls ∧ processFrame D clock s ⟨d, spare⟩ = .panic) ∨
    ∃ items log' m' cmds m c news l e1 e2 hs frames,
      frameVoiced D clock dlog lib (Cli.table legacy) fails log s ⟨d, spare⟩ = (items, some (log', ⟨m', { c with out := [] }⟩)) ∧
      TextItems spare d l ∧ InSaid lib s.mode l m cmds e1 ∧ HandleEvents D clock dlog cmds { s.ctx with out := [] } c news e2 ∧
      OutDone lib legacy fails log.length m news.flatten log'.length m' hs ∧
      Watched ((e1 ++ silent e2).map .said ++ hs) items ∧
      processFrame D clock s ⟨d, spare⟩ = .ret (⟨m', { c with out := [] }⟩, frames) ∧
      log' = log ++ gadgetUpToFails legacy (errs fails) log.length frames ∧
      deviceOps items = (putsAll legacy (errs fails) log.length frames).map Deed.op := by
  have hs := frameSaid_same D clock dlog lib (fun _ => none) 0 s ⟨d, spare⟩
  rw [frameSaid] at hs
  rw [frameVoiced]
  rcases readVoiced_cases lib s.mode d spare with ⟨m, cmds, ls, h1, h2⟩ | ⟨ls, evs, h1, h2, h3, h4⟩
  · right
    rw [h1] at hs
    simp only [h2]
    simp only [Out.bind_ret] at hs
    have hh := handleLogged_same D clock dlog cmds { s.ctx with out := [] }
    obtain ⟨c', hc⟩ := handleAll_total D clock cmds { s.ctx with out := [] }
    cases hl : handleLogged D clock dlog cmds { s.ctx with out := [] } with
    | panic => rw [hl, hc] at hh; cases hh
    | ret c =>
      obtain ⟨c, lc⟩ := c
      rw [hl] at hs
      simp only [Out.bind_ret] at hs
      obtain ⟨l, e1, f1, f2, f3⟩ := readSaid_events h1
      obtain ⟨news, e2, g1, g2, g3⟩ := handleLogged_events "<< " hl
      rw [List.nil_append] at g3
      obtain ⟨items, log', m', hs', i1, i2, i3, i4, i5, i6⟩ := sendVoiced_done lib legacy fails c.out log m
      simp only [i1, Option.map_some]
      have o : ∀ x, c.out = x → OutDone lib legacy fails log.length m x log'.length m' hs' := by
        rintro x rfl
        exact i2
      have hsame := sendSaid_same lib (fun _ => none) 0 m c.out
      refine ⟨_, log', m', cmds, m, c, news, l, e1, e2, hs', (sendAll m c.out).2, rfl, f1, f2, g1, o _ g3, ?_, ?_, i5, ?_⟩
      · rw [List.map_append, List.append_assoc]
        exact watched_append (watched_said f3) (watched_append (watched_said (saidAll_silent g2)) i3)
      · rw [← hs, i4, ← hsame]
      · rw [deviceOps_append, deviceOps_append, deviceOps_say, deviceOps_say]
        exact i6
  · left
    rw [h1] at hs
    simp only [h2]
    exact ⟨ls, evs, rfl, h3, h4, hs.symm⟩

/-! ### a read -/

/-- What a step comes to, as `Live.onRead` has it. -/
def liveNext {σ : Type} (l : Live σ) (frames : List Bytes) : Next σ → Out (Option (Live σ))
  | .crash => .panic
  | .ends => .ret none
  | .goes v => .ret (some ⟨v.buf, v.srv, l.written ++ frames⟩)

theorem noReport_of_error {legacy : Bool} {r : ReadT} {e : Err} (h : rawReadReport r.res = .error e) (he : e ≠ .eof) :
    ∃ x, reportText r = some x ∧ NoReport legacy r x := by
  obtain ⟨data, err⟩ := r
  unfold rawReadReport ReadT.res at h
  cases err with
  | some f =>
    refine ⟨f.text, rfl, .device rfl ?_⟩
    simp only [Option.map_some, Except.error.injEq] at h
    rw [h]; exact he
  | none =>
    simp only [Option.map_none] at h
    by_cases h3 : data.length < 3
    · exact ⟨_, reportText_short h3, .short rfl h3⟩
    · rw [show maxRawSize = 1024 from rfl] at h
      match data, h3 with
      | [], h3 => simp at h3
      | [_], h3 => simp at h3
      | [_, _], h3 => simp at h3
      | a :: b :: c :: d, _ => simp at h

theorem noReport_of_find {legacy : Bool} {r : ReadT} {rep : Report} (h : rawReadReport r.res = .ok rep)
    (hf : find (Cli.table legacy) rep.id.toNat = none) :
    ∃ x, findText (Cli.table legacy) rep.id = some x ∧ NoReport legacy r x := by
  refine ⟨_, by rw [findText, hf], ?_⟩
  obtain ⟨data, err⟩ := r
  unfold rawReadReport ReadT.res at h
  cases err with
  | some f => simp at h
  | none =>
    have hr := find_rooms legacy rep.id
    rw [hf] at hr
    rw [show maxRawSize = 1024 from rfl] at h
    match data, h with
    | [], h => simp at h
    | [_], h => simp at h
    | [_, _], h => simp at h
    | a :: b :: c :: d, h =>
      simp only [Option.map_none, List.take_succ_cons, Except.ok.injEq] at h
      subst h
      refine .unknown (id := a) (d := b :: c :: d) rfl (by simp) rfl
        (by have := hr.symm; simpa only [Option.map_none, Option.map_eq_none_iff] using this)
        (formatInt10_text _ (Nat.lt_trans a.toNat_lt (by decide)))

/-- One frame, as a step. -/
theorem voice_frame {σ : Type} (D : Device σ) (clock : Clock) (dlog : Command → Ctx σ → List Line) (lib : BinTexts) (legacy : Bool)
    (fails : Nat → Option Fault) (v : Voice σ) (buf : Slice) (w : List Bytes) :
    ∃ items next frames, v.frame D clock dlog lib (Cli.table legacy) fails buf = (items, next) ∧
      (Live.frame D clock ⟨v.buf, v.srv, w⟩ buf >>= fun l => Out.ret (some l)) = liveNext ⟨v.buf, v.srv, w⟩ frames next ∧
      deviceOps items = (putsAll legacy (errs fails) v.log.length frames).map Deed.op ∧
      ((∃ evs, next = .crash ∧ frames = [] ∧ Breaks lib buf.spare v.srv.mode buf.data evs ∧
        Watched (((.frameIn (.ok buf.data), none) :: evs).map .said) items) ∨
      ∃ v' m' cmds m c news l e1 e2 hs, next = .goes v' ∧ v'.buf.data = [] ∧ v'.srv = ⟨m', { c with out := [] }⟩ ∧
        v'.log = v.log ++ gadgetUpToFails legacy (errs fails) v.log.length frames ∧
        TextItems buf.spare buf.data l ∧ InSaid lib v.srv.mode l m cmds e1 ∧
        HandleEvents D clock dlog cmds { v.srv.ctx with out := [] } c news e2 ∧
        OutDone lib legacy fails v.log.length m news.flatten v'.log.length m' hs ∧
        Watched (((.frameIn (.ok buf.data), none) :: (e1 ++ silent e2)).map .said ++ hs) items) := by
  have eF : ascii "<< FRAME" = ascii "<< " ++ ascii "FRAME" := by decide +kernel
  obtain ⟨d, spare⟩ := buf
  rw [Voice.frame, Live.frame]
  rcases frameVoiced_cases D clock dlog lib legacy fails v.log v.srv d spare with ⟨ls, evs, h1, h2, h3, h4⟩ |
    ⟨items, log', m', cmds, m, c, news, l, e1, e2, hs, frames, h1, h2, h3, h4, h5, h6, h7, h8, h9⟩
  · simp only [h1, h4, eF]
    refine ⟨_, _, [], rfl, rfl, ?_, .inl ⟨evs, rfl, rfl, h2, ?_⟩⟩
    · exact deviceOps_say ls
    · exact .said (s := (_, none)) .frameIn (watched_said h3)
  · simp only [h1, h7, eF]
    refine ⟨_, _, frames, rfl, rfl, h9, .inr ⟨_, m', cmds, m, c, news, l, e1, e2, hs, rfl, rfl, rfl, h8, h2, h3, h4, h5, ?_⟩⟩
    exact .said (s := (_, none)) .frameIn h6

/-- What follows from a step for what is watched. -/
def StepServes {σ : Type} (D : Device σ) (clock : Clock) (dlog : Command → Ctx σ → List Line) (lib : BinTexts) (legacy : Bool)
    (fails : Nat → Option Fault) (v : Voice σ) (r : ReadT) (hs : List Happening) (frames : List Bytes) : Next σ → Prop
  | .crash => frames = [] ∧ ∀ rs, Serves D clock dlog lib legacy fails v.buf.data v.srv v.log.length (r :: rs) (.deed (.got r.res) :: hs) .crashed
  | .ends => frames = [] ∧ ∀ rs, Serves D clock dlog lib legacy fails v.buf.data v.srv v.log.length (r :: rs) (.deed (.got r.res) :: hs) .ended
  | .goes v' => v'.log = v.log ++ gadgetUpToFails legacy (errs fails) v.log.length frames ∧
      ∀ rs hs' fate, Serves D clock dlog lib legacy fails v'.buf.data v'.srv v'.log.length rs hs' fate →
        Serves D clock dlog lib legacy fails v.buf.data v.srv v.log.length (r :: rs) (.deed (.got r.res) :: (hs ++ hs')) fate

theorem voice_complete {σ : Type} (D : Device σ) (clock : Clock) (dlog : Command → Ctx σ → List Line) (lib : BinTexts) (legacy : Bool)
    (fails : Nat → Option Fault) (v : Voice σ) (r : ReadT) (w : List Bytes) (buf : Slice) (link : UInt8) (d : Bytes)
    (hr : Spec.seen legacy r.res = .report link d) (hb : link = 0x00 ∧ buf.data = d ∨ link = 0x01 ∧ buf.data = v.buf.data ++ d) :
    ∃ items next frames hs, v.frame D clock dlog lib (Cli.table legacy) fails buf = (items, next) ∧
      (Live.frame D clock ⟨v.buf, v.srv, w⟩ buf >>= fun l => Out.ret (some l)) = liveNext ⟨v.buf, v.srv, w⟩ frames next ∧
      deviceOps items = (putsAll legacy (errs fails) v.log.length frames).map Deed.op ∧ Watched hs items ∧
      StepServes D clock dlog lib legacy fails v r hs frames next := by
  obtain ⟨items, next, frames, h1, h2, h3, h4⟩ := voice_frame D clock dlog lib legacy fails v buf w
  rcases h4 with ⟨evs, rfl, rfl, h5, h6⟩ | ⟨v', m', cmds, m, c, news, l, e1, e2, hs, rfl, h5, h6, h7, h8, h9, h10, h11, h12⟩
  · exact ⟨items, _, [], _, h1, h2, h3, h6, rfl, fun rs => .crash hr hb h5⟩
  · refine ⟨items, _, frames, _, h1, h2, h3, h12, h7, fun rs hs' fate h => ?_⟩
    rw [h5, h6] at h
    rw [List.append_assoc]
    exact .frame hr hb h8 h9 h10 h11 h

theorem voice_read {σ : Type} (D : Device σ) (clock : Clock) (dlog : Command → Ctx σ → List Line) (lib : BinTexts) (grow : Growth)
    (legacy : Bool) (fails : Nat → Option Fault) (v : Voice σ) (r : ReadT) (w : List Bytes) :
    ∃ items next frames hs, v.onRead D clock dlog lib grow (Cli.table legacy) fails r = (items, next) ∧
      Live.onRead D clock grow (Cli.table legacy) ⟨v.buf, v.srv, w⟩ r.res = liveNext ⟨v.buf, v.srv, w⟩ frames next ∧
      deviceOps items = (putsAll legacy (errs fails) v.log.length frames).map Deed.op ∧ Watched hs items ∧
      StepServes D clock dlog lib legacy fails v r hs frames next := by
  have eF : ascii "<< FRAME" = ascii "<< " ++ ascii "FRAME" := by decide +kernel
  have hseen := raw_seen legacy r.res
  rw [Voice.onRead, Live.onRead]
  have hn : ∀ (x : Bytes) (e : Err), NoReport legacy r x → StepServes D clock dlog lib legacy fails v r
      [.said (.frameIn (.error e), some x)] [] (.goes { v with buf := v.buf.reset }) := by
    intro x e hx
    refine ⟨(List.append_nil _).symm, fun rs hs' fate h => .refused hx h⟩
  cases hs : Spec.seen legacy r.res with
  | eof =>
    rw [hs] at hseen
    simp only [hseen]
    exact ⟨_, _, [], [.said (.finished, none)], rfl, rfl, rfl, .said (s := (_, none)) .finished .nil, rfl, fun rs => .eof hs⟩
  | nothing =>
    rw [hs] at hseen
    rcases hseen with ⟨e, he, h⟩ | ⟨rep, h, hf⟩
    · obtain ⟨x, hx1, hx2⟩ := noReport_of_error (legacy := legacy) h he
      simp only [h, if_neg he, hx1, eF]
      exact ⟨_, _, [], _, rfl, by simp [liveNext], rfl, .said (s := (_, some x)) (.frameInErr (e := e)) .nil, hn x e hx2⟩
    · obtain ⟨x, hx1, hx2⟩ := noReport_of_find (legacy := legacy) h hf
      simp only [h, hf, hx1, eF]
      exact ⟨_, _, [], _, rfl, by simp [liveNext], rfl, .said (s := (_, some x)) (.frameInErr (e := .eof)) .nil, hn x .eof hx2⟩
  | report lc d =>
    rw [hs] at hseen
    obtain ⟨rep, rd, h, hf, hneg, hlc, hd⟩ := hseen
    simp only [h, hf, if_neg hneg, hlc, hd]
    by_cases h0 : lc = 0x00
    · subst h0
      rw [if_pos (show (0x00 : UInt8) = linkControlDone from rfl), if_pos (show (0x00 : UInt8) = linkControlDone from rfl)]
      exact voice_complete D clock dlog lib legacy fails v r w _ 0x00 d hs (.inl ⟨rfl, by simp⟩)
    · have h0' : ¬ lc = linkControlDone := h0
      rw [if_neg h0', if_neg h0']
      by_cases h1 : lc = 0x01
      · subst h1
        rw [if_neg (by decide), if_neg (by decide), if_pos (by rfl), if_neg (by decide), if_neg (by decide), if_pos (by rfl)]
        exact voice_complete D clock dlog lib legacy fails v r w _ 0x01 d hs (.inr ⟨rfl, by simp⟩)
      · have h1' : ¬ lc = linkControlContinue := h1
        have hpart : ∀ (part' : Bytes) (v' : Voice σ), part' = (if lc = 0x02 then d else if lc = 0x03 then v.buf.data ++ d else v.buf.data) →
            v'.buf.data = part' → v'.srv = v.srv → v'.log = v.log → StepServes D clock dlog lib legacy fails v r [] [] (.goes v') := by
          intro part' v' hp a1 a2 a3
          refine ⟨by rw [a3]; exact (List.append_nil _).symm, fun rs hs' fate hh => ?_⟩
          rw [a1, a2, a3] at hh
          exact .part hs h0 h1 hp hh
        by_cases h2 : lc = 0x02
        · subst h2
          rw [if_pos (by rfl), if_pos (by rfl)]
          exact ⟨_, _, [], [], rfl, by simp [liveNext], rfl, .nil, hpart d _ rfl (by simp) rfl rfl⟩
        · have h2' : ¬ lc = linkControlMoreToFollow := h2
          rw [if_neg h2', if_neg h2']
          by_cases h3 : lc = 0x03
          · subst h3
            rw [if_pos (by rfl), if_pos (by rfl)]
            exact ⟨_, _, [], [], rfl, by simp [liveNext], rfl, .nil, hpart _ _ rfl (by simp) rfl rfl⟩
          · have h3' : ¬ lc = linkControlContinue ||| linkControlMoreToFollow := h3
            rw [if_neg h3', if_neg h3', if_neg h1', if_neg h1']
            exact ⟨_, _, [], [], rfl, by simp [liveNext], rfl, .nil, hpart _ _ (by rw [if_neg h2, if_neg h3]) rfl rfl rfl⟩

/-! ### the run -/

/-- How the server is when the reads have returned. -/
def fateOf {σ : Type} : Next σ → Fate
  | .crash => .crashed
  | .ends => .ended
  | .goes _ => .waits

theorem run_goes {σ : Type} {D : Device σ} {clock : Clock} {dlog : Command → Ctx σ → List Line} {lib : BinTexts} {grow : Growth}
    {defs : List ReportDef} {fails : Nat → Option Fault} {r : ReadT} {rs : List ReadT} {v v' : Voice σ} {items : List Item}
    (h : v.onRead D clock dlog lib grow defs fails r = (items, .goes v')) :
    Voice.run D clock dlog lib grow defs fails (r :: rs) v =
      (.op (.read r.res) :: (items ++ (Voice.run D clock dlog lib grow defs fails rs v').1), (Voice.run D clock dlog lib grow defs fails rs v').2) := by
  rw [Voice.run, h]

theorem run_serves {σ : Type} (D : Device σ) (clock : Clock) (dlog : Command → Ctx σ → List Line) (lib : BinTexts) (grow : Growth)
    (legacy : Bool) (fails : Nat → Option Fault) (reads : List ReadT) : ∀ v : Voice σ,
    ∃ hs, Serves D clock dlog lib legacy fails v.buf.data v.srv v.log.length reads hs
        (fateOf (Voice.run D clock dlog lib grow (Cli.table legacy) fails reads v).2) ∧
      Watched hs (Voice.run D clock dlog lib grow (Cli.table legacy) fails reads v).1 := by
  induction reads with
  | nil => intro v; exact ⟨[], .rest, .nil⟩
  | cons r reads ih =>
    intro v
    obtain ⟨items, next, frames, hs, h1, h2, h3, h4, h5⟩ := voice_read D clock dlog lib grow legacy fails v r []
    cases next with
    | crash => rw [Voice.run, h1]; exact ⟨_, h5.2 _, .deed h4⟩
    | ends => rw [Voice.run, h1]; exact ⟨_, h5.2 _, .deed h4⟩
    | goes v' =>
      obtain ⟨hs', i1, i2⟩ := ih v'
      rw [run_goes h1]
      exact ⟨_, h5.2 _ _ _ i1, .deed (watched_append h4 i2)⟩

theorem run_ops {σ : Type} (D : Device σ) (clock : Clock) (dlog : Command → Ctx σ → List Line) (lib : BinTexts) (grow : Growth)
    (legacy : Bool) (fails : Nat → Option Fault) (reads : List ReadT) : ∀ (v : Voice σ) (w : List Bytes),
    deviceOps (Voice.run D clock dlog lib grow (Cli.table legacy) fails reads v).1 =
      session D clock grow (Cli.table legacy) (errs fails) (reads.map (·.res)) ⟨v.buf, v.srv, w⟩ v.log := by
  induction reads with
  | nil => intro v w; rfl
  | cons r reads ih =>
    intro v w
    obtain ⟨items, next, frames, hs, h1, h2, h3, h4, h5⟩ := voice_read D clock dlog lib grow legacy fails v r w
    simp only [List.map_cons, session, h2]
    cases next with
    | crash =>
      rw [h5.1] at h3
      rw [Voice.run, h1]
      simp only [deviceOps, h3, liveNext]
      rfl
    | ends =>
      rw [h5.1] at h3
      rw [Voice.run, h1]
      simp only [deviceOps, h3, liveNext]
      rfl
    | goes v' =>
      rw [run_goes h1]
      simp only [liveNext, deviceOps, deviceOps_append, h3]
      have hw : (w ++ frames).drop w.length = frames := by simp
      have ho := (ops_putsAll legacy (errs fails) frames v.log.length).1
      rw [deedOp_op] at ho
      rw [hw, gadget_write_frames, ← h5.1, ih v' (w ++ frames), ← ho]
      simp only [h5.1, List.drop_left]

/-! ### what the log tells -/

theorem modeEvents_not (m m' : Bool) : ∀ ev ∈ modeEvents m m', ev = .transactions m' := by
  intro ev hev
  rw [modeEvents] at hev
  split at hev
  · cases hev
  · exact List.mem_singleton.1 hev

/-- The events while a frame is read. -/
inductive ReadEvent : Event → Prop
  | packet {r} : ReadEvent (.packetIn r)
  | mode {b} : ReadEvent (.transactions b)
  | cmd {c e} : ReadEvent (.cmdIn c e)

theorem silent_packet {p : Bytes} {m m1 : Bool} : ∀ s ∈ silent (.packetIn (.ok p) :: modeEvents m m1), ReadEvent s.1 := by
  intro s hs
  obtain ⟨ev, hev, rfl⟩ := List.mem_map.1 hs
  rcases List.mem_cons.1 hev with rfl | hev
  · exact .packet
  · rw [modeEvents_not _ _ _ hev]; exact .mode

theorem silent_cmd {p : Bytes} {m m1 : Bool} {cmd : Command} :
    ∀ s ∈ silent (.packetIn (.ok p) :: (modeEvents m m1 ++ [.cmdIn cmd none])), ReadEvent s.1 := by
  intro s hs
  rw [← List.cons_append, silent, List.map_append] at hs
  rcases List.mem_append.1 hs with hs | hs
  · exact silent_packet s hs
  · rw [List.mem_singleton.1 hs]; exact .cmd

theorem inSaid_read {lib : BinTexts} {m m' : Bool} {l : List (Except Bytes Bytes)} {cmds : List Command} {evs : List Said}
    (h : InSaid lib m l m' cmds evs) : ∀ s ∈ evs, ReadEvent s.1 := by
  induction h with
  | nil => intro s hs; cases hs
  | bad _ ih =>
    intro s hs
    rcases List.mem_cons.1 hs with rfl | hs
    · exact .packet
    · exact ih s hs
  | packet _ _ ih =>
    intro s hs
    rcases List.mem_append.1 hs with hs | hs
    · exact silent_cmd s hs
    · exact ih s hs
  | refused _ _ _ ih =>
    intro s hs
    rcases List.mem_append.1 hs with hs | hs
    · exact silent_packet s hs
    · rcases List.mem_cons.1 hs with rfl | hs
      · exact .cmd
      · exact ih s hs

theorem breaks_read {lib : BinTexts} {spare : Bytes} {m : Bool} {d : Bytes} {evs : List Said}
    (h : Breaks lib spare m d evs) : ∀ s ∈ evs, ReadEvent s.1 := by
  induction h with
  | overrun => intro s hs; cases hs
  | malformed => intro s hs; rw [List.mem_singleton.1 hs]; exact .packet
  | short _ _ _ ih =>
    intro s hs
    rcases List.mem_cons.1 hs with rfl | hs
    · exact .packet
    · exact ih s hs
  | damaged _ _ _ _ _ ih =>
    intro s hs
    rcases List.mem_cons.1 hs with rfl | hs
    · exact .packet
    · exact ih s hs
  | packet _ _ _ _ ih =>
    intro s hs
    rcases List.mem_append.1 hs with hs | hs
    · exact silent_cmd s hs
    · exact ih s hs
  | refused _ _ _ _ _ ih =>
    intro s hs
    rcases List.mem_append.1 hs with hs | hs
    · exact silent_packet s hs
    · rcases List.mem_cons.1 hs with rfl | hs
      · exact .cmd
      · exact ih s hs

theorem handle_events_mem {σ : Type} {D : Device σ} {clock : Clock} {dlog : Command → Ctx σ → List Line} {cmds : List Command}
    {c c' : Ctx σ} {news : List (List Command)} {evs : List Event} (h : HandleEvents D clock dlog cmds c c' news evs) :
    ∀ ev ∈ evs, ev = .unsupported ∨ ∃ l cmd c, ev = .device l ∧ l ∈ dlog cmd c := by
  induction h with
  | nil => intro ev hev; cases hev
  | cons _ _ ih =>
    intro ev hm
    rcases List.mem_append.1 hm with hm | hm
    · rw [handlerEvents] at hm
      split at hm
      · obtain ⟨x, hx, e⟩ := List.mem_map.1 hm
        exact .inr ⟨x, _, _, e.symm, hx⟩
      · split at hm
        · exact .inl (List.mem_singleton.1 hm)
        · cases hm
    · exact ih _ hm

/-- How a happening counts: a report refused, a frame said not to be sent, the end. -/
def refusedDeed : Happening → Bool
  | .deed (.put _ (some _)) => true
  | _ => false

def refusedSaid : Happening → Bool
  | .said (.frameOut _ (some _), _) => true
  | _ => false

def finishedSaid : Happening → Bool
  | .said (.finished, _) => true
  | _ => false

/-- Happenings without any of these. -/
def Neutral (h : Happening) : Prop := refusedDeed h = false ∧ refusedSaid h = false ∧ finishedSaid h = false

theorem neutral_counts {hs : List Happening} (h : ∀ x ∈ hs, Neutral x) :
    hs.countP refusedDeed = 0 ∧ hs.countP refusedSaid = 0 ∧ hs.countP finishedSaid = 0 := by
  simp only [List.countP_eq_zero]
  exact ⟨fun x hx => by simp [(h x hx).1], fun x hx => by simp [(h x hx).2.1], fun x hx => by simp [(h x hx).2.2]⟩

theorem neutral_read {evs : List Said} (h : ∀ s ∈ evs, ReadEvent s.1) : ∀ x ∈ evs.map Happening.said, Neutral x := by
  intro x hx
  obtain ⟨s, hs, rfl⟩ := List.mem_map.1 hx
  obtain ⟨ev, t⟩ := s
  have := h _ hs
  cases this <;> exact ⟨rfl, rfl, rfl⟩

theorem neutral_handle {σ : Type} {D : Device σ} {clock : Clock} {dlog : Command → Ctx σ → List Line} {cmds : List Command}
    {c c' : Ctx σ} {news : List (List Command)} {evs : List Event} (h : HandleEvents D clock dlog cmds c c' news evs) :
    ∀ x ∈ (silent evs).map Happening.said, Neutral x := by
  intro x hx
  obtain ⟨s, hs, rfl⟩ := List.mem_map.1 hx
  obtain ⟨ev, hev, rfl⟩ := List.mem_map.1 hs
  rcases handle_events_mem h ev hev with rfl | ⟨l, cmd, c, rfl, _⟩ <;> exact ⟨rfl, rfl, rfl⟩

theorem puts_count (fails : Nat → Option Fault) (bs : List Bytes) : ∀ i,
    ((puts (fun j => (fails j).map (·.err)) i bs).map Happening.deed).countP refusedDeed =
      (if (refusal fails i bs).isSome then 1 else 0) ∧
    ((puts (fun j => (fails j).map (·.err)) i bs).map Happening.deed).countP refusedSaid = 0 ∧
    ((puts (fun j => (fails j).map (·.err)) i bs).map Happening.deed).countP finishedSaid = 0 := by
  induction bs with
  | nil => intro i; exact ⟨rfl, rfl, rfl⟩
  | cons b bs ih =>
    intro i
    cases hf : fails i with
    | some f =>
      have e1 : puts (fun j => (fails j).map (·.err)) i (b :: bs) = [.put b (some f.err)] := by simp only [puts, hf, Option.map_some]
      have e2 : refusal fails i (b :: bs) = some f := by simp only [refusal, hf]
      rw [e1, e2]
      exact ⟨rfl, rfl, rfl⟩
    | none =>
      have e1 : puts (fun j => (fails j).map (·.err)) i (b :: bs) = .put b none :: puts (fun j => (fails j).map (·.err)) (i + 1) bs := by
        simp only [puts, hf, Option.map_none]
      have e2 : refusal fails i (b :: bs) = refusal fails (i + 1) bs := by simp only [refusal, hf]
      obtain ⟨h1, h2, h3⟩ := ih (i + 1)
      rw [e1, e2, List.map_cons, List.countP_cons, List.countP_cons, List.countP_cons, h1, h2, h3]
      exact ⟨rfl, rfl, rfl⟩

theorem out_counts {lib : BinTexts} {legacy : Bool} {fails : Nat → Option Fault} {i i' : Nat} {m m' : Bool} {cmds : List Command}
    {hs : List Happening} (h : OutDone lib legacy fails i m cmds i' m' hs) :
    hs.countP refusedDeed = hs.countP refusedSaid ∧ hs.countP finishedSaid = 0 := by
  induction h with
  | nil => exact ⟨rfl, rfl⟩
  | @cons i i' m m1 m' cmd cmds out ds x hs hm hds hx _ ih =>
    have hn : ∀ y ∈ (silent (.cmdOut cmd :: modeEvents m m1) ++ [((Event.packetOut out, x) : Said)]).map Happening.said, Neutral y := by
      intro y hy
      obtain ⟨s, hs, rfl⟩ := List.mem_map.1 hy
      rcases List.mem_append.1 hs with hs | hs
      · obtain ⟨ev, hev, rfl⟩ := List.mem_map.1 hs
        rcases List.mem_cons.1 hev with rfl | hev
        · exact ⟨rfl, rfl, rfl⟩
        · rw [modeEvents_not _ _ _ hev]; exact ⟨rfl, rfl, rfl⟩
      · rw [List.mem_singleton.1 hs]; exact ⟨rfl, rfl, rfl⟩
    obtain ⟨n1, n2, n3⟩ := neutral_counts hn
    obtain ⟨p1, p2, p3⟩ := puts_count fails (reportsOf legacy true (frameFor out)) i
    rw [hds]
    simp only [List.countP_append, List.countP_cons, n1, n2, n3, p1, p2, p3, ih.1, ih.2]
    cases hr : refusal fails i (reportsOf legacy true (frameFor out)) with
    | none => simp [ofFault, refusedDeed, refusedSaid, finishedSaid]
    | some f => simp [ofFault, refusedDeed, refusedSaid, finishedSaid]; omega

/-- As many reports refused as frames said not to be sent; the end is said iff it is reached. -/
theorem serves_counts {σ : Type} {D : Device σ} {clock : Clock} {dlog : Command → Ctx σ → List Line} {lib : BinTexts} {legacy : Bool}
    {fails : Nat → Option Fault} {part : Bytes} {s : Srv σ} {i : Nat} {rs : List ReadT} {hs : List Happening} {fate : Fate}
    (h : Serves D clock dlog lib legacy fails part s i rs hs fate) :
    hs.countP refusedDeed = hs.countP refusedSaid ∧ hs.countP finishedSaid = (if fate = .ended then 1 else 0) := by
  have hg : ∀ r, Neutral (.deed (.got r)) := fun r => ⟨rfl, rfl, rfl⟩
  induction h with
  | rest => exact ⟨rfl, rfl⟩
  | eof => exact ⟨rfl, rfl⟩
  | refused _ _ ih =>
    simp only [List.countP_cons, ih.1, ih.2, refusedDeed, refusedSaid, finishedSaid]
    exact ⟨rfl, rfl⟩
  | part _ _ _ _ _ ih =>
    simp only [List.countP_cons, ih.1, ih.2, refusedDeed, refusedSaid, finishedSaid]
    exact ⟨rfl, rfl⟩
  | frame _ _ _ hi hh ho _ ih =>
    obtain ⟨n1, n2, n3⟩ := neutral_counts (neutral_read (inSaid_read hi))
    obtain ⟨k1, k2, k3⟩ := neutral_counts (neutral_handle hh)
    obtain ⟨o1, o2⟩ := out_counts ho
    simp only [List.map_cons, List.map_append, List.cons_append, List.countP_cons, List.countP_append, n1, n2, n3, k1, k2, k3, o1, o2,
      ih.1, ih.2, refusedDeed, refusedSaid, finishedSaid]
    exact ⟨by simp, by simp⟩
  | crash _ _ hb =>
    obtain ⟨n1, n2, n3⟩ := neutral_counts (neutral_read (breaks_read hb))
    simp only [List.map_cons, List.countP_cons, n1, n2, n3, refusedDeed, refusedSaid, finishedSaid]
    exact ⟨rfl, rfl⟩

/-- The lines of the device itself, among all that is watched. -/
theorem serves_device {σ : Type} {D : Device σ} {clock : Clock} {dlog : Command → Ctx σ → List Line} {lib : BinTexts} {legacy : Bool}
    {fails : Nat → Option Fault} {part : Bytes} {s : Srv σ} {i : Nat} {rs : List ReadT} {hs : List Happening} {fate : Fate}
    (h : Serves D clock dlog lib legacy fails part s i rs hs fate) {l : Line} {t : Option Bytes}
    (hl : .said (.device l, t) ∈ hs) : t = none ∧ ∃ cmd c, l ∈ dlog cmd c := by
  have hread : ∀ {evs : List Said}, (∀ s ∈ evs, ReadEvent s.1) → .said (.device l, t) ∉ evs.map Happening.said := by
    intro evs he hm
    obtain ⟨s, hs, e⟩ := List.mem_map.1 hm
    cases e
    cases he _ hs
  have hout : ∀ {i m cmds i' m' hs}, OutDone lib legacy fails i m cmds i' m' hs → .said (.device l, t) ∉ hs := by
    intro i m cmds i' m' hs h
    induction h with
    | nil => simp
    | @cons i i' m m1 m' cmd cmds out ds x hs hm hds hx _ ih =>
      intro hm
      rcases List.mem_append.1 hm with hm | hm
      · obtain ⟨s, hs, e⟩ := List.mem_map.1 hm
        cases e
        rcases List.mem_append.1 hs with hs | hs
        · obtain ⟨ev, hev, e⟩ := List.mem_map.1 hs
          cases e
          rcases List.mem_cons.1 hev with e | hev
          · cases e
          · cases modeEvents_not _ _ _ hev
        · cases List.mem_singleton.1 hs
      · rcases List.mem_append.1 hm with hm | hm
        · obtain ⟨d, _, e⟩ := List.mem_map.1 hm
          cases e
        · rcases List.mem_cons.1 hm with e | hm
          · cases e
          · exact ih hm
  induction h with
  | rest => cases hl
  | eof => simp at hl
  | refused _ _ ih => exact ih (by simpa using hl)
  | part _ _ _ _ _ ih => exact ih (by simpa using hl)
  | frame _ _ _ hi hh ho _ ih =>
    rcases List.mem_cons.1 hl with e | hl
    · cases e
    · rcases List.mem_append.1 hl with hl | hl
      · rw [List.map_cons, List.map_append] at hl
        rcases List.mem_cons.1 hl with e | hl
        · cases e
        · rcases List.mem_append.1 hl with hl | hl
          · exact absurd hl (hread (inSaid_read hi))
          · obtain ⟨s, hs, e⟩ := List.mem_map.1 hl
            cases e
            obtain ⟨ev, hev, e⟩ := List.mem_map.1 hs
            cases e
            rcases handle_events_mem hh _ hev with e | ⟨l', cmd, c, e, hm⟩
            · cases e
            · cases e; exact ⟨rfl, cmd, c, hm⟩
      · rcases List.mem_append.1 hl with hl | hl
        · exact absurd hl (hout ho)
        · exact ih hl
  | crash _ _ hb =>
    rw [List.map_cons] at hl
    rcases List.mem_cons.1 hl with e | hl
    · cases e
    · rcases List.mem_cons.1 hl with e | hl
      · cases e
      · exact absurd hl (hread (breaks_read hb))

/-- The line that says the end was reached. -/
def endLine (l : Line) : Bool := decide (l.message = ascii "EOF") && decide (l.level = 3)

theorem withText_message (t : Option Bytes) (l : Line) : (withText t l).message = l.message ∧ (withText t l).level = l.level := by
  cases t <;> exact ⟨rfl, rfl⟩

theorem withText_key (t : Option Bytes) (l : Line) :
    ((withText t l).fields.any fun f => decide (f.1 = "error")) = l.fields.any fun f => decide (f.1 = "error") := by
  cases t with
  | none => rfl
  | some x =>
    simp only [withText, List.any_map]
    congr 1
    funext f
    simp only [Function.comp_apply]
    by_cases h : f.1 = "error" <;> simp [h]

theorem line_counts {s : Said} {l : Line} (h : ShownAs "<< " s.1 l) (hd : ∀ l, s.1 = .device l → l.fields = [] ∧ l.level ≠ 3) :
    refusedFrame (withText s.2 l) = refusedSaid (.said s) ∧ endLine (withText s.2 l) = finishedSaid (.said s) := by
  have n1 : ascii "<< " ++ ascii "FRAME" ≠ ascii ">> FRAME" ∧ ascii "<< " ++ ascii "FRAME" ≠ ascii "EOF" := by decide +kernel
  have n2 : ascii "<< " ++ ascii "PACKET" ≠ ascii ">> FRAME" ∧ ascii "<< " ++ ascii "PACKET" ≠ ascii "EOF" := by decide +kernel
  have n3 : ascii "<< " ++ ascii "CMD" ≠ ascii ">> FRAME" ∧ ascii "<< " ++ ascii "CMD" ≠ ascii "EOF" := by decide +kernel
  have n4 : ascii ">> CMD" ≠ ascii ">> FRAME" ∧ ascii ">> CMD" ≠ ascii "EOF" := by decide +kernel
  have n5 : ascii ">> PACKET" ≠ ascii ">> FRAME" ∧ ascii ">> PACKET" ≠ ascii "EOF" := by decide +kernel
  have n6 : ascii "Enabling transaction support" ≠ ascii ">> FRAME" ∧ ascii "Enabling transaction support" ≠ ascii "EOF" := by decide +kernel
  have n7 : ascii "Disabling transaction support" ≠ ascii ">> FRAME" ∧ ascii "Disabling transaction support" ≠ ascii "EOF" := by decide +kernel
  have n8 : ascii "Lingo SimpleRemote is not supported yet" ≠ ascii ">> FRAME" ∧
      ascii "Lingo SimpleRemote is not supported yet" ≠ ascii "EOF" := by decide +kernel
  have n9 : ascii ">> FRAME" ≠ ascii "EOF" := by decide +kernel
  rw [refusedFrame, endLine, withText_key, (withText_message _ _).1, (withText_message _ _).2]
  obtain ⟨ev, t⟩ := s
  simp only at h hd
  cases h with
  | device =>
    obtain ⟨h1, h2⟩ := hd _ rfl
    rw [h1, decide_eq_false h2]
    simp [refusedSaid, finishedSaid]
  | frameIn => simp only [n1, decide_false, Bool.false_and]; exact ⟨rfl, rfl⟩
  | frameInErr => simp only [n1, decide_false, Bool.false_and]; exact ⟨rfl, rfl⟩
  | packetIn => simp only [n2, decide_false, Bool.false_and]; exact ⟨rfl, rfl⟩
  | packetInErr => simp only [n2, decide_false, Bool.false_and]; exact ⟨rfl, rfl⟩
  | on => simp only [n6, decide_false, Bool.false_and]; exact ⟨rfl, rfl⟩
  | off => simp only [n7, decide_false, Bool.false_and]; exact ⟨rfl, rfl⟩
  | cmdIn => simp only [n3, decide_false, Bool.false_and]; exact ⟨rfl, rfl⟩
  | cmdInErr => simp only [n3, decide_false, Bool.false_and]; exact ⟨rfl, rfl⟩
  | unsupported => simp only [n8, decide_false, Bool.false_and]; exact ⟨rfl, rfl⟩
  | cmdOut => simp only [n4, decide_false, Bool.false_and]; exact ⟨rfl, rfl⟩
  | packetOut => simp only [n5, decide_false, Bool.false_and]; exact ⟨rfl, rfl⟩
  | packetOutErr => simp only [n5, decide_false, Bool.false_and]; exact ⟨rfl, rfl⟩
  | frameOut => simp only [n9, decide_false, Bool.false_and]; exact ⟨by simp [refusedSaid], rfl⟩
  | frameOutErr => simp only [n9, decide_false, Bool.false_and]; exact ⟨by simp [refusedSaid], rfl⟩
  | finished => exact ⟨by simp [refusedSaid], by simp [finishedSaid]⟩

theorem watched_counts {hs : List Happening} {items : List Item} (h : Watched hs items)
    (hd : ∀ l t, .said (.device l, t) ∈ hs → l.fields = [] ∧ l.level ≠ 3) :
    (deviceOps items).countP refusedWrite = hs.countP refusedDeed ∧ (logLines items).countP refusedFrame = hs.countP refusedSaid ∧
      (logLines items).countP endLine = hs.countP finishedSaid := by
  induction h with
  | nil => exact ⟨rfl, rfl, rfl⟩
  | @deed d hs is _ ih =>
    obtain ⟨i1, i2, i3⟩ := ih fun l t h => hd l t (by simp [h])
    have : refusedWrite d.op = refusedDeed (.deed d) := by
      cases d with
      | got r => rfl
      | put b e => cases e <;> rfl
    simp only [deviceOps, logLines, List.countP_cons, i1, i2, i3, this]
    exact ⟨trivial, by simp [refusedSaid], by simp [finishedSaid]⟩
  | @said s l hs is h1 _ ih =>
    obtain ⟨i1, i2, i3⟩ := ih fun l t h => hd l t (by simp [h])
    obtain ⟨a1, a2⟩ := line_counts h1 fun l he => hd l s.2 (by rw [← he]; simp)
    simp only [deviceOps, logLines, List.countP_cons, i1, i2, i3, a1, a2]
    exact ⟨by simp [refusedDeed], trivial, trivial⟩

end Props
