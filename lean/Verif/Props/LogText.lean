import Verif.Props.LogTextFrames
import Verif.Props.LogView

/-! The log with the texts of the errors (C104). -/

namespace Props
open Go Spec Ipod Ipod.Hid Ipod.Trace Ipod.Log

/-! ### writing -/

/-- C104. The texts apart, frames are written as before. -/
theorem C104_write_same (fuel : Nat) (defs : List ReportDef) (fails : Nat → Option Fault) (log : List Report) (data : Bytes) :
    (writeFrameT fuel defs fails log data).map (fun o => o >>= fun x => .ret (x.1, x.2.map (·.err))) =
      writeFrameFor fuel defs (fun i => (fails i).map (·.err)) log data := by
  rw [writeFrameT, writeFrameFor]
  generalize data.length = left
  generalize 0 = off
  induction fuel generalizing log off left with
  | zero => rfl
  | succ fuel ih =>
    rw [writeFrameLoopT, writeFrameLoop]
    by_cases h0 : left = 0
    · rw [if_pos h0, if_pos h0]; rfl
    · rw [if_neg h0, if_neg h0]
      cases pick defs left .accIn with
      | none => rfl
      | some d =>
        dsimp only
        by_cases hm : d.maxPayload < 0
        · rw [if_pos hm, if_pos hm]; rfl
        · rw [if_neg hm, if_neg hm]
          cases hf : fails log.length with
          | some f => rfl
          | none => exact ih _ _ _

/-- C104. What the error of writing a frame says: that there is no report to send it in, or what the device said at the last report
handed to it. -/
theorem C104_write (fuel : Nat) (defs : List ReportDef) (fails : Nat → Option Fault) (log log' : List Report) (data : Bytes) (f : Fault)
    (h : writeFrameT fuel defs fails log data = some (.ret (log', some f))) :
    (f.text = ascii "no matching report found" ∧ f.err = Err.noReport ∧ data ≠ [] ∧ ∀ d ∈ defs, d.dir ≠ .accIn) ∨
    ∃ n, log'.length = log.length + n + 1 ∧ fails (log.length + n) = some f ∧ ∀ i < n, fails (log.length + i) = none := by
  rw [writeFrameT] at h
  have key : ∀ (fuel off left : Nat) (log : List Report), writeFrameLoopT defs fails data fuel log off left = some (.ret (log', some f)) →
      (f.text = ascii "no matching report found" ∧ f.err = Err.noReport ∧ left ≠ 0 ∧ ∀ d ∈ defs, d.dir ≠ .accIn) ∨
      ∃ n, log'.length = log.length + n + 1 ∧ fails (log.length + n) = some f ∧ ∀ i < n, fails (log.length + i) = none := by
    intro fuel
    induction fuel with
    | zero => intro off left log h; cases h
    | succ fuel ih =>
      intro off left log h
      rw [writeFrameLoopT] at h
      by_cases h0 : left = 0
      · rw [if_pos h0] at h; cases h
      · rw [if_neg h0] at h
        cases hp : pick defs left .accIn with
        | none =>
          rw [hp] at h
          cases h
          exact .inl ⟨rfl, rfl, h0, pick_none.1 hp⟩
        | some d =>
          rw [hp] at h
          dsimp only at h
          by_cases hm : d.maxPayload < 0
          · rw [if_pos hm] at h; cases h
          · rw [if_neg hm] at h
            cases hf : fails log.length with
            | some f' =>
              rw [hf] at h
              simp only [Option.some.injEq, Out.ret.injEq, Prod.mk.injEq] at h
              obtain ⟨rfl, rfl⟩ := h
              exact .inr ⟨0, by simp, hf, by simp⟩
            | none =>
              rw [hf] at h
              rcases ih _ _ _ h with ⟨h1, h2, _, h3⟩ | ⟨n, h1, h2, h3⟩
              · exact .inl ⟨h1, h2, h0, h3⟩
              · simp only [List.length_append, List.length_singleton] at h1 h2 h3
                refine .inr ⟨n + 1, by omega, by rw [← h2]; congr 1; omega, fun i hi => ?_⟩
                cases i with
                | zero => exact hf
                | succ i =>
                  have := h3 i (by omega)
                  rw [← this]
                  congr 1
                  omega
  rcases key fuel 0 data.length log h with ⟨h1, h2, h3, h4⟩ | h1
  · exact .inl ⟨h1, h2, fun h => h3 (by rw [h]; rfl), h4⟩
  · exact .inr h1

/-- A report that the device refuses. -/
example (log' : List Report) (f : Fault)
    (h : writeFrameT 3 [⟨1, 5, .accIn⟩] (fun _ => some ⟨.noProgress, ascii "no"⟩) [] [1] = some (.ret (log', some f))) :
    f.text = ascii "no" := by
  rcases C104_write _ _ _ _ _ _ _ h with ⟨_, _, _, h⟩ | ⟨n, _, h, _⟩
  · exact absurd rfl (h ⟨1, 5, .accIn⟩ (by simp))
  · cases h; rfl

/-- No report the device takes; a device that fails at the second report. -/
example : writeFrameT 3 [⟨1, 5, .accOut⟩] (fun _ => none) [] [1] = some (.ret ([], some ⟨Err.noReport, ascii "no matching report found"⟩)) ∧
    writeFrameT 3 [⟨1, 3, .accIn⟩] (fun i => if i = 1 then some ⟨.other 5, ascii "write /dev/iap0: no such device"⟩ else none) [] [1, 2, 3] =
      some (.ret ([⟨1, 2, [1, 2]⟩, ⟨1, 1, [3, 0]⟩], some ⟨.other 5, ascii "write /dev/iap0: no such device"⟩)) := by decide +kernel

/-- C104. What the error of writing a report says: what the device says, or that it took less than the report. -/
theorem C104_report (r : Report) (n : Nat) (err : Option Fault) (hn : n ≤ 2 + r.data.length) (x : Bytes) :
    (writeReportText r (n, err) = some x ↔ (∃ f, err = some f ∧ x = f.text) ∨ err = none ∧ n < 2 + r.data.length ∧ x = ascii "short write") ∧
    ((∃ e, rawWriteReport r (n, err.map (·.err)) = .ret (some e)) ↔ ∃ x, writeReportText r (n, err) = some x) := by
  have hl : (rawReportBytes r).length = 2 + r.data.length := by simp [rawReportBytes]; omega
  have ht : plainText .shortWrite = ascii "short write" := by decide +kernel
  rw [writeReportText, rawWriteReport, hl]
  dsimp only
  rw [if_neg (show ¬ n > 2 + r.data.length by omega)]
  cases err with
  | some f => simp [eq_comm]
  | none =>
    dsimp only [Option.map_none]
    by_cases h : n = 2 + r.data.length
    · rw [if_neg (fun h' => h' h), if_neg (fun h' => h' h)]
      simp
      omega
    · rw [if_pos h, if_pos h, ht]
      simp [eq_comm]
      omega

example (x : Bytes) : writeReportText ⟨1, 0, [1, 2]⟩ (3, none) = some x ↔ x = ascii "short write" := by
  simpa using (C104_report ⟨1, 0, [1, 2]⟩ 3 none (by decide) x).1

/-! ### the log -/

theorem saidAll_append {pre : String} {a b : List Said} {l l' : List Line} (h : SaidAll pre a l) (h' : SaidAll pre b l') :
    SaidAll pre (a ++ b) (l ++ l') := by
  induction h with
  | nil => exact h'
  | cons h1 _ ih => exact .cons h1 ih

theorem saidAll_silent {pre : String} {evs : List Event} {ls : List Line} (h : ShownAll pre evs ls) : SaidAll pre (silent evs) ls := by
  induction h with
  | nil => exact .nil
  | cons h1 _ ih => exact .cons (ev := (_, none)) h1 ih

theorem withText_fields {cmd : Command} {fs : List (String × Val)} (h : CmdFields cmd fs) (level : Level) (msg x : Bytes) (e : Err) :
    withText (some x) ⟨level, msg, fs ++ [("error", .err e)]⟩ = ⟨level, msg, fs ++ [("error", .text x)]⟩ := by
  obtain ⟨id, trx, ty, _, _, _, rfl⟩ := h
  simp [withText]

theorem saidCmd {pre : String} (cmd : Command) (e : Err) (x : Bytes) {evs : List Said} {ls : List Line} (h : SaidAll pre evs ls) :
    SaidAll pre ((.cmdIn cmd (some e), some x) :: evs) (sayCmd cmd (some x) (ascii pre ++ ascii "CMD") :: ls) := by
  have := SaidAll.cons (ev := (.cmdIn cmd (some e), some x)) (ShownAs.cmdInErr (pre := pre) (commandFields_fields cmd)) h
  rwa [withText_fields (commandFields_fields cmd)] at this

theorem readSaid_eq (lib : BinTexts) (pre : Bytes) (mode : Bool) (frame : Slice) : readSaid lib pre mode frame =
    match readPacket frame with
    | .panic => .panic
    | .ret (rest, .error e) =>
      if e = .eof then .ret (mode, [], [])
      else readSaid lib pre mode rest >>= fun y =>
        .ret (y.1, y.2.1, sayLen 0 (some (plainText e)) (pre ++ ascii "PACKET") :: y.2.2)
    | .ret (rest, .ok pkt) =>
      unmarshalCmd mode pkt >>= fun x =>
      unmarshalText lib mode pkt >>= fun t =>
      readSaid lib pre x.1 rest >>= fun y =>
      .ret (y.1, x.2.1 :: y.2.1,
        sayLen pkt.length none (pre ++ ascii "PACKET") :: (modeLines mode x.1 ++ sayCmd x.2.1 t (pre ++ ascii "CMD") :: y.2.2)) := by
  rw [readSaid]
  split <;> simp_all

/-- Which error it is where no packet begins. -/
theorem readPacket_skipped {j d spare : Bytes} (hj : Filler j) (hp : ¬ PacketHere (0x55 :: d)) (ho : ¬ Overruns spare d) :
    readPacket ⟨j ++ 0x55 :: d, spare⟩ = .ret (⟨d, spare⟩, .error (if d.length < 3 then .unexpectedEOF else Err.checksum)) := by
  obtain ⟨e, he, hr⟩ := readPacket_skip hj hp ho
  rw [hr]
  rw [readPacket_start j d spare hj] at hr
  by_cases h3 : d.length < 3
  · rw [afterStart_short d spare h3] at hr
    rw [if_pos h3]
    cases hr
    rfl
  · rw [if_neg h3]
    obtain ⟨off, len, hh, _⟩ := parseHeader_ok d (by omega)
    rw [afterStart_header d spare off len hh] at hr
    split at hr
    · cases hr
    · split at hr
      · cases hr; rfl
      · split at hr
        · cases hr
        · simp at hr

theorem readSaid_events {lib : BinTexts} {pre : String} {m m' : Bool} {d spare : Bytes} {cmds : List Command} {ls : List Line}
    (h : readSaid lib (ascii pre) m ⟨d, spare⟩ = .ret (m', cmds, ls)) :
    ∃ l evs, TextItems spare d l ∧ InSaid lib m l m' cmds evs ∧ SaidAll pre evs ls := by
  have hnil : (writePacket newPacketWriter []).1 = [] := rfl
  have t1 : plainText .unexpectedEOF = ascii "unexpected EOF" := by decide +kernel
  have t2 : plainText Err.checksum = ascii "invalid checksum" := by decide +kernel
  obtain ⟨ps, b, hs⟩ := scan_total spare d
  induction hs generalizing m cmds ls with
  | done hf =>
    rw [readSaid_eq, readPacket_filler _ spare hf] at h
    cases h
    exact ⟨[], [], .done hf, .nil, .nil⟩
  | crash hj ho => rw [readSaid_eq, readPacket_overrun hj ho] at h; cases h
  | @packet j w rest p ps b hj hw hs ih =>
    rw [readSaid_eq, readPacket_isPacket _ _ _ _ spare hj hw] at h
    cases hu : unmarshalCmd m p with
    | panic => simp only [hu] at h; cases h
    | ret x =>
      obtain ⟨m1, cmd, err⟩ := x
      simp only [hu, Out.bind_ret] at h
      obtain ⟨a1, a2, a3⟩ := C103_agrees lib m p
      cases ht : unmarshalText lib m p with
      | panic => rw [a1.2 ht] at hu; cases hu
      | ret t =>
        simp only [ht, Out.bind_ret] at h
        cases hr : readSaid lib (ascii pre) m1 ⟨rest, spare⟩ with
        | panic => simp only [hr] at h; cases h
        | ret y =>
          simp only [hr, Out.bind_ret] at h
          cases h
          obtain ⟨l, evs, h1, h2, h3⟩ := ih hr
          cases t with
          | none =>
            obtain ⟨_, _, h4⟩ := a2.2 ht
            rw [hu] at h4
            cases h4
            refine ⟨_, _, .packet hj hw h1, .packet hu h2, ?_⟩
            have := saidAll_append (saidAll_silent (ShownAll.cons (ShownAs.packetIn (p := p)) (shownAll_append (modeLines_shown pre m m1)
              (.cons (ShownAs.cmdIn (commandFields_fields cmd)) .nil)))) h3
            simpa [sayLen, sayCmd, infoLevel, errorLevel, withText, hnil] using this
          | some x =>
            obtain ⟨_, _, e, h4⟩ := a3.2 ⟨x, ht⟩
            rw [hu] at h4
            cases h4
            refine ⟨_, _, .packet hj hw h1, .refused hu ((C103_texts lib m p x).1 ht) h2, ?_⟩
            have := saidAll_append (saidAll_silent (ShownAll.cons (ShownAs.packetIn (p := p)) (modeLines_shown pre m m1)))
              (saidCmd cmd e x h3)
            simpa [sayLen, sayCmd, infoLevel, errorLevel, withText, hnil] using this
  | @skip j d ps b hj hp ho hs ih =>
    rw [readSaid_eq, readPacket_skipped hj hp ho] at h
    dsimp only at h
    rw [if_neg (by by_cases h3 : d.length < 3 <;> simp [h3])] at h
    cases hr : readSaid lib (ascii pre) m ⟨d, spare⟩ with
    | panic => rw [hr] at h; cases h
    | ret y =>
      rw [hr] at h
      simp only [Out.bind_ret] at h
      cases h
      obtain ⟨l, evs, h1, h2, h3⟩ := ih hr
      by_cases hl : d.length < 3
      · rw [if_pos hl, t1]
        exact ⟨_, _, .short hj hl h1, .bad (e := .unexpectedEOF) h2, .cons (ev := (_, some _)) .packetInErr h3⟩
      · rw [if_neg hl, t2]
        exact ⟨_, _, .damaged hj (by omega) hp ho h1, .bad (e := Err.checksum) h2, .cons (ev := (_, some _)) .packetInErr h3⟩

/-- The texts apart, the packet loop is the one modelled before. -/
theorem readSaid_same (lib : BinTexts) (pre : Bytes) (m : Bool) (f : Slice) :
    (readSaid lib pre m f >>= fun y => .ret (y.1, y.2.1)) = readCommands m f := by
  obtain ⟨d, spare⟩ := f
  obtain ⟨ps, b, hs⟩ := scan_total spare d
  induction hs generalizing m with
  | done hf => rw [readSaid_eq, readCommands_eq, readPacket_filler _ spare hf]; rfl
  | crash hj ho => rw [readSaid_eq, readCommands_eq, readPacket_overrun hj ho]; rfl
  | @packet j w rest p ps b hj hw hs ih =>
    rw [readSaid_eq, readCommands_eq, readPacket_isPacket _ _ _ _ spare hj hw]
    dsimp only
    cases hu : unmarshalCmd m p with
    | panic => rfl
    | ret x =>
      cases ht : unmarshalText lib m p with
      | panic => rw [(C103_agrees lib m p).1.2 ht] at hu; cases hu
      | ret t =>
        simp only [Out.bind_ret, ← ih]
        cases readSaid lib pre x.1 ⟨rest, spare⟩ with
        | panic => rfl
        | ret y => rfl
  | @skip j d ps b hj hp ho hs ih =>
    obtain ⟨e, he, r⟩ := readPacket_skip hj hp ho
    rw [readSaid_eq, readCommands_eq, r]
    simp only [if_neg he, ← ih]
    cases readSaid lib pre m ⟨d, spare⟩ with
    | panic => rfl
    | ret y => rfl

theorem sendSaid_same (lib : BinTexts) (werr : Nat → Option Fault) (k : Nat) (m : Bool) (cmds : List Command) :
    ((sendSaid lib werr k m cmds).1, (sendSaid lib werr k m cmds).2.1) = sendAll m cmds := by
  induction cmds generalizing k m with
  | nil => rfl
  | cons cmd cmds ih =>
    simp only [sendSaid, sendAll, ← ih (k + 1)]
    rfl

theorem frameSaid_same {σ : Type} (D : Device σ) (clock : Clock) (dlog : Command → Ctx σ → List Line) (lib : BinTexts)
    (werr : Nat → Option Fault) (k : Nat) (s : Srv σ) (f : Slice) :
    (frameSaid D clock dlog lib werr k s f >>= fun x => .ret (x.1, x.2.1)) = processFrame D clock s f := by
  rw [frameSaid, processFrame, ← readSaid_same lib (ascii "<< ")]
  cases readSaid lib (ascii "<< ") s.mode f with
  | panic => rfl
  | ret x =>
    simp only [Out.bind_ret, ← handleLogged_same D clock dlog]
    cases handleLogged D clock dlog x.2.1 { s.ctx with out := [] } with
    | panic => rfl
    | ret c => simp only [Out.bind_ret, ← sendSaid_same lib werr k]

/-- C104. The texts change nothing: the run is the one without them. -/
theorem C104_same {σ : Type} (D : Device σ) (clock : Clock) (dlog : Command → Ctx σ → List Line) (lib : BinTexts)
    (werr : Nat → Option Fault) (k : Nat) (reads : List (Except Fault Slice)) (s : Srv σ) :
    (framesSaid D clock dlog lib werr k reads s >>= fun x => .ret (x.1, x.2.1)) = processFrames D clock (reads.map unsaid) s := by
  induction reads generalizing k s with
  | nil => rfl
  | cons r reads ih =>
    rcases r with ⟨e, x⟩ | f
    · by_cases he : e = .eof
      · subst he; rfl
      · rw [framesSaid]
        dsimp only
        rw [if_neg he]
        refine Eq.trans ?_ (processFrames.eq_3 _ _ _ _ _ (by simpa using he)).symm
        rw [← ih k]
        cases framesSaid D clock dlog lib werr k reads s with
        | panic => rfl
        | ret y => rfl
    · rw [framesSaid, List.map_cons]
      refine Eq.trans ?_ (processFrames.eq_4 _ _ _ _ _).symm
      rw [← frameSaid_same D clock dlog lib werr k]
      cases frameSaid D clock dlog lib werr k s f with
      | panic => rfl
      | ret x =>
        simp only [Out.bind_ret, ← ih (k + x.2.1.length)]
        cases framesSaid D clock dlog lib werr (k + x.2.1.length) reads x.1 with
        | panic => rfl
        | ret y => rfl

theorem sayLen_out (f : Bytes) (err : Option Fault) (pre : String) {evs : List Said} {ls : List Line} (h : SaidAll pre evs ls) :
    SaidAll pre ((.frameOut f (ofFault err).1, (ofFault err).2) :: evs)
      (sayLen f.length (err.map (·.text)) (ascii ">> FRAME") :: ls) := by
  cases err with
  | none => exact .cons (ev := (_, none)) .frameOut h
  | some e => exact .cons (ev := (_, some _)) .frameOutErr h

theorem sendSaid_events (pre : String) (lib : BinTexts) (werr : Nat → Option Fault) (k : Nat) (m : Bool) (cmds : List Command) :
    ∃ evs, OutSaid lib werr k m cmds (sendSaid lib werr k m cmds).1 (sendSaid lib werr k m cmds).2.1 evs ∧
      SaidAll pre evs (sendSaid lib werr k m cmds).2.2 := by
  have hnil : (writePacket newPacketWriter []).1 = [] := rfl
  induction cmds generalizing k m with
  | nil => exact ⟨[], .nil, .nil⟩
  | cons cmd cmds ih =>
    obtain ⟨evs, h1, h2⟩ := ih (k + 1) (marshalCmd m cmd).1
    simp only [sendSaid]
    have ha := C103_send_agrees lib m cmd
    cases hr : (marshalCmd m cmd).2 with
    | ok p =>
      have hn : marshalText lib cmd = none := by
        cases hx : marshalText lib cmd with
        | none => rfl
        | some x =>
          obtain ⟨e, he⟩ := ha.2 ⟨x, hx⟩
          rw [hr] at he
          cases he
      rw [hn]
      refine ⟨_, .packet (Prod.ext rfl hr) (packetFrame_frameOf hr) h1, ?_⟩
      have := saidAll_append (saidAll_silent (ShownAll.cons (pre := pre) (ShownAs.cmdOut (commandFields_fields cmd))
        (shownAll_append (modeLines_shown pre m (marshalCmd m cmd).1) (.cons (ShownAs.packetOut (p := p)) .nil))))
        (sayLen_out (writePacket newPacketWriter p).1 (werr k) pre h2)
      simpa [sayLen, sayCmd, infoLevel, errorLevel, withText, hnil] using this
    | error e =>
      obtain ⟨x, hx⟩ := ha.1 ⟨e, hr⟩
      rw [hx]
      refine ⟨_, .refused (Prod.ext rfl hr) ((C103_send_texts lib cmd x).1 hx) h1, ?_⟩
      have := saidAll_append (saidAll_silent (ShownAll.cons (pre := pre) (ShownAs.cmdOut (commandFields_fields cmd))
        (modeLines_shown pre m (marshalCmd m cmd).1)))
        (SaidAll.cons (ev := (.packetOut (.error e), some x)) .packetOutErr (sayLen_out [] (werr k) pre h2))
      simpa [sayLen, sayCmd, infoLevel, errorLevel, withText, hnil] using this

/-- C104. The log of the server, with what its errors say: one line for each event, in order. -/
theorem C104_log {σ : Type} (D : Device σ) (clock : Clock) (dlog : Command → Ctx σ → List Line) (lib : BinTexts)
    (werr : Nat → Option Fault) (k : Nat) (reads : List (Except Fault Slice)) (s s' : Srv σ) (w : List Bytes) (ls : List Line)
    (h : framesSaid D clock dlog lib werr k reads s = .ret (s', w, ls)) :
    ∃ evs, RunSaid D clock dlog lib werr k s reads s' w evs ∧ SaidAll "<< " evs ls := by
  have eF : ascii "<< FRAME" = ascii "<< " ++ ascii "FRAME" := by decide +kernel
  induction reads generalizing k s w ls with
  | nil => cases h; exact ⟨_, .done, .cons (ev := (_, none)) .finished .nil⟩
  | cons r reads ih =>
    rcases r with ⟨e, x⟩ | f
    · by_cases he : e = .eof
      · subst he; cases h; exact ⟨_, .eof rfl, .cons (ev := (_, none)) .finished .nil⟩
      · rw [framesSaid] at h
        dsimp only at h
        rw [if_neg he] at h
        cases hr : framesSaid D clock dlog lib werr k reads s with
        | panic => rw [hr] at h; cases h
        | ret y =>
          rw [hr] at h
          cases h
          obtain ⟨evs, h1, h2⟩ := ih _ _ _ _ hr
          refine ⟨_, .error he h1, ?_⟩
          rw [eF]
          exact .cons (ev := (_, some _)) .frameInErr h2
    · rw [framesSaid] at h
      cases hx : frameSaid D clock dlog lib werr k s f with
      | panic => rw [hx] at h; cases h
      | ret x =>
        rw [hx] at h
        simp only [Out.bind_ret] at h
        cases hr : framesSaid D clock dlog lib werr (k + x.2.1.length) reads x.1 with
        | panic => rw [hr] at h; cases h
        | ret y =>
          rw [hr] at h
          cases h
          rw [frameSaid] at hx
          cases ha : readSaid lib (ascii "<< ") s.mode f with
          | panic => rw [ha] at hx; cases hx
          | ret a =>
            obtain ⟨m, cmds, la⟩ := a
            rw [ha] at hx
            simp only [Out.bind_ret] at hx
            cases hb : handleLogged D clock dlog cmds { s.ctx with out := [] } with
            | panic => rw [hb] at hx; cases hx
            | ret b =>
              rw [hb] at hx
              simp only [Out.bind_ret] at hx
              cases hx
              obtain ⟨d, spare⟩ := f
              obtain ⟨l, e1, f1, f2, f3⟩ := readSaid_events ha
              obtain ⟨news, e2, g1, g2, g3⟩ := handleLogged_events "<< " hb
              obtain ⟨e3, o1, o2⟩ := sendSaid_events "<< " lib werr k m b.1.out
              obtain ⟨e4, h1, h2⟩ := ih _ _ _ _ hr
              rw [List.nil_append] at g3
              have o1' : ∀ x, b.1.out = x →
                  OutSaid lib werr k m x (sendSaid lib werr k m b.1.out).1 (sendSaid lib werr k m b.1.out).2.1 e3 := by
                intro x hx
                subst hx
                exact o1
              refine ⟨_, .frame f1 f2 g1 (o1' _ g3) h1, ?_⟩
              rw [eF]
              refine .cons (ev := (_, none)) .frameIn ?_
              exact saidAll_append (saidAll_append (saidAll_append f3 (saidAll_silent g2)) o2) h2

/-- C104. From the reads of the device to the log: the errors of the transport say their cause. -/
theorem C104_serve {σ : Type} (D : Device σ) (clock : Clock) (dlog : Command → Ctx σ → List Line) (lib : BinTexts)
    (werr : Nat → Option Fault) (grow : Growth) (defs : List ReportDef) (reads : List ReadT) (s s' : Srv σ) (w : List Bytes) (ls : List Line)
    (h : serveSaid D clock dlog lib werr grow defs reads s = .ret (s', w, ls)) :
    ∃ frames evs, HeardT defs reads frames ∧ RunSaid D clock dlog lib werr 0 s frames s' w evs ∧ SaidAll "<< " evs ls := by
  rw [serveSaid] at h
  cases hf : frameReadsT grow defs reads.length reads ⟨[], []⟩ with
  | panic => rw [hf] at h; cases h
  | ret frames =>
    rw [hf] at h
    simp only [Out.bind_ret] at h
    obtain ⟨evs, h1, h2⟩ := C104_log D clock dlog lib werr 0 frames s s' w ls h
    exact ⟨frames, evs, (C104_frames _ _ (Nat.le_refl _) _ hf).1, h1, h2⟩

/-- C104. And the server does what it did without. -/
theorem C104_serve_same {σ : Type} (D : Device σ) (clock : Clock) (dlog : Command → Ctx σ → List Line) (lib : BinTexts)
    (werr : Nat → Option Fault) (grow : Growth) (defs : List ReportDef) (reads : List ReadT) (s : Srv σ) :
    (serveSaid D clock dlog lib werr grow defs reads s >>= fun x => .ret (x.1, x.2.1)) =
      serve D clock grow defs (reads.map ReadT.res) s := by
  rw [serveSaid, serve, List.length_map, List.map_map]
  have := C104_frames_same grow defs reads.length reads ⟨[], []⟩
  rw [show rawReadReport ∘ ReadT.res = fun r => rawReadReport r.res from rfl, ← this]
  cases frameReadsT grow defs reads.length reads ⟨[], []⟩ with
  | panic => rfl
  | ret frames => exact C104_same D clock dlog lib werr 0 frames s

/-- Noise on the line, a damaged packet, and a request for the answer to which the transport fails. -/
example : (serveSaid devGeneral (fun _ => ⟨2020, 1, 1, 0, 0⟩) (fun _ _ => []) ⟨fun _ => [], fun _ => []⟩
      (fun n => if n = 0 then some ⟨.shortWrite, ascii "short write"⟩ else none) (fun _ n => n) defaultReportDefs
      [⟨[0x63, 0, 1, 2], none⟩, ⟨[1, 0, 0x55, 0x02, 0x00, 0x07, 0x00], none⟩, ⟨[1, 0, 0x55, 0x04, 0x00, 0x38, 0x00, 0x01, 0xC3], none⟩]
      (Srv.init DevGeneral.zero) >>= fun x => .ret x.2) =
    .ret ([[85, 6, 0, 2, 0, 1, 0, 56, 191]],
      [⟨2, ascii "<< FRAME", [("len", .num 0), ("error", .text (ascii "report id no found: 99"))]⟩,
       ⟨4, ascii "<< FRAME", [("len", .num 5)]⟩,
       ⟨2, ascii "<< PACKET", [("len", .num 0), ("error", .text (ascii "invalid checksum"))]⟩,
       ⟨4, ascii "<< FRAME", [("len", .num 7)]⟩,
       ⟨4, ascii "<< PACKET", [("len", .num 4)]⟩,
       ⟨3, ascii "Enabling transaction support", []⟩,
       ⟨4, ascii "<< CMD", [("id", .text (ascii "0x00,0x38")), ("trx", .text (ascii "0x0001")), ("type", .text (ascii "*general.StartIDPS"))]⟩,
       ⟨4, ascii ">> CMD", [("id", .text (ascii "0x00,0x02")), ("trx", .text (ascii "0x0001")), ("type", .text (ascii "*general.ACK"))]⟩,
       ⟨4, ascii ">> PACKET", [("len", .num 6)]⟩,
       ⟨2, ascii ">> FRAME", [("len", .num 9), ("error", .text (ascii "short write"))]⟩,
       ⟨3, ascii "EOF", []⟩]) := by decide +kernel

/-! ### the viewer -/

theorem frameText_take (defs : List ReportDef) (bs : List Bytes) (l : List ReadT) :
    frameText defs (bs.map (fun b => goodT (b.take 1024)) ++ l) = frameText defs (bs.map goodT ++ l) := by
  induction bs with
  | nil => rfl
  | cons b bs ih =>
    match b with
    | [] => rfl
    | [_] => rfl
    | [_, _] => rfl
    | x :: y :: z :: t =>
      simp only [List.map_cons, List.cons_append]
      have h1 : reportOf (x :: y :: z :: t) = some ⟨x, y, z :: t.take 1021⟩ := by simp [reportOf]
      have h2 : reportOf ((x :: y :: z :: t).take 1024) = some ⟨x, y, z :: t.take 1021⟩ := by simp [reportOf, List.take_take]
      rw [frameText_good h1, frameText_good h2, ih]

theorem readFrameQueueT_rel {grow : Growth} {defs : List ReportDef} {mem : Ptr → Msg} {d : Trace.Dir} (hd : d = 0 ∨ d = 1)
    {q : Queue} {l : List Ptr} (h : QRel mem q l) :
    readFrameQueueT grow defs mem d q = .panic ∨
    (∃ q' x, readFrameQueueT grow defs mem d q = .ret (q', .error ⟨.eof, x⟩) ∧ Unfinished defs (ofDir d (l.map mem))) ∨
    (∃ q' l' f used, readFrameQueueT grow defs mem d q = .ret (q', .ok f) ∧ OneCall defs used (.ok f.data) ∧
      QRel mem q' l' ∧ Taken d used (l.map mem) (l'.map mem) ∧ l'.length < l.length) ∨
    (∃ q' l' e x used, readFrameQueueT grow defs mem d q = .ret (q', .error ⟨e, x⟩) ∧ e ≠ .eof ∧ OneCall defs used (.error e) ∧
      CallSays defs (used.map goodT) x ∧ QRel mem q' l' ∧ Taken d used (l.map mem) (l'.map mem) ∧ l'.length < l.length) := by
  have hq : q.all.length = l.length := by rw [← h.all, List.length_map]
  obtain ⟨q1, l1, h1, _, _, h6⟩ := queueReads_rel hd q.all.length h
  have hle : (ofDir d (l.map mem)).length ≤ l.length := by
    simp only [ofDir, List.length_map]
    exact Nat.le_trans (List.length_filter_le _ _) (by simp)
  rw [hq, List.take_of_length_le hle] at h1
  have heq : readFrameQueueT grow defs mem d q = readFrameQueue grow defs mem d q >>= fun y => .ret (y.1, match y.2 with
      | .ok f => .ok f
      | .error e => .error ⟨e, (frameText defs ((ofDir d (l.map mem)).map (fun b => goodT (b.take 1024)) ++
          List.replicate (l.length - (ofDir d (l.map mem)).length) ⟨[], some (plainFault .eof)⟩)).getD []⟩) := by
    rw [readFrameQueueT, hq, h1]
    simp only [Out.bind_ret, List.map_append, List.map_map, List.map_replicate]
    rfl
  rw [frameText_take] at heq
  rcases readFrameQueue_rel (grow := grow) (defs := defs) hd h with h2 | ⟨q', h2, h3⟩ | ⟨q', l', x, used, h2, h3, h4, h5, h7, h8⟩
  · left; rw [heq, h2]; rfl
  · right; left; rw [heq, h2]; exact ⟨q', _, rfl, h3⟩
  · right; right
    rw [heq, h2]
    cases x with
    | ok f => exact .inl ⟨q', l', f, used, rfl, h4, h5, h7, h8⟩
    | error e =>
      obtain ⟨t, ht⟩ := oneCall_says h4
      refine .inr ⟨q', l', e, t, used, ?_, fun he => h3 (by rw [he]), h4, ht, h5, h7, h8⟩
      rw [(taken_ofDir h7).1, List.map_append, List.append_assoc, callSays_text ht]
      rfl

/-- The loop of the viewer. -/
theorem dumpSaid_rel {lib : BinTexts} {grow : Growth} {defs : List ReportDef} {mem : Ptr → Msg} (fuel : Nat) {q : Queue} {l : List Ptr}
    (h : QRel mem q l) (hf : l.length < fuel) (mode : Bool) :
    dumpSaid lib grow defs mem fuel q mode = .panic ∨
    ∃ ls, dumpSaid lib grow defs mem fuel q mode = .ret (some ls) ∧ ViewSaid lib defs mode (l.map mem) ls := by
  induction fuel generalizing q l mode with
  | zero => omega
  | succ fuel ih =>
    have hhead : q.head = l.head? := by rw [Queue.head, ← h.all, List.head?_map]
    cases l with
    | nil =>
      right
      refine ⟨_, ?_, .done⟩
      rw [dumpSaid, hhead]
      rfl
    | cons p l =>
      have hd : (mem p).dir = 0 ∨ (mem p).dir = 1 := by
        have : p ∈ q.all.map (·.msg) := by rw [h.all]; simp
        obtain ⟨i, hi, rfl⟩ := List.mem_map.1 this
        exact h.valid i hi
      rw [dumpSaid, hhead]
      simp only [List.head?_cons]
      rw [dirPrefix_mark hd]
      rcases readFrameQueueT_rel (grow := grow) (defs := defs) hd h with h1 | ⟨q', x, h1, h2⟩ | ⟨q', l', f, used, h1, h2, h4, h5, h6⟩ |
        ⟨q', l', e, x, used, h1, h2, h3, h3', h4, h5, h6⟩
      · left; rw [h1]; rfl
      · right
        rw [h1]
        exact ⟨_, rfl, .cut h2⟩
      · rw [h1]
        simp only [Out.bind_ret]
        simp only [List.length_cons] at hf h6
        cases hy : readSaid lib (ascii (mark (mem p).dir)) mode f with
        | panic => left; rfl
        | ret y =>
          obtain ⟨m', cmds, la⟩ := y
          simp only [Out.bind_ret]
          rcases ih h4 (by omega) m' with h7 | ⟨ls, h7, h8⟩
          · left; rw [h7]; rfl
          · right
            rw [h7]
            obtain ⟨d, spare⟩ := f
            obtain ⟨items, evs, i1, i2, i3⟩ := readSaid_events hy
            exact ⟨_, rfl, .frame (l := _ :: la) h2 h5 i1 i2 (.cons (ev := (_, none)) .frameIn i3) h8⟩
      · rw [h1]
        simp only [Out.bind_ret, if_neg h2]
        simp only [List.length_cons] at hf h6
        rcases ih h4 (by omega) mode with h7 | ⟨ls, h7, h8⟩
        · left; rw [h7]; rfl
        · right
          rw [h7]
          exact ⟨_, rfl, .error h3 h3' h5 h8⟩

theorem loadFault_trace {os : Err → Bytes} {r : Reader} {content : Bytes} {ending : Option Err} (hr : r = newReader content ending)
    {ms : List Msg} (h : loadTrace r = .ok ms) : loadFault os r = .ok ms := by
  have := C104_load_same os content ending
  rw [← hr, h] at this
  cases hl : loadFault os r with
  | ok ms' => rw [hl] at this; dsimp only at this; cases this; rfl
  | error f => rw [hl] at this; cases this

/-- C104. The log of the viewer on a trace it can read, with what its errors say. -/
theorem C104_view (lib : BinTexts) (os : Err → Bytes) (content : Bytes) (ending : Option Err) {ms : List Msg}
    (h : loadTrace (newReader content ending) = .ok ms) (grow : Growth) (defs : List ReportDef) (fuel : Nat) (hf : ms.length < fuel) :
    viewSaid lib os grow defs fuel (newReader content ending) = .panic ∨
    ∃ ls, viewSaid lib os grow defs fuel (newReader content ending) = .ret (some ls) ∧ ViewSaid lib defs false ms ls := by
  rw [viewSaid, loadFault_trace rfl h]
  dsimp only
  have h0 : QRel (fun p => (ms[p]?).getD Msg.zero) Queue.empty [] := 
    ⟨rfl, rfl, rfl, by simp [Queue.empty], by simp [Queue.empty], by simp [Queue.empty]⟩
  obtain ⟨q, h1, h2⟩ := enqueueAll_rel (List.range ms.length) (fun p hp => by
    have : p < ms.length := List.mem_range.1 hp
    simp only [List.getElem?_eq_getElem this, Option.getD_some]
    exact loadTrace_dirs h _ (List.getElem_mem _)) h0
  rw [h1]
  simp only [Out.bind_ret]
  rw [List.nil_append] at h2
  have := dumpSaid_rel (lib := lib) (grow := grow) (defs := defs) fuel h2 (by simpa using hf) false
  rwa [range_map_get] at this

/-- The log of the viewer ends with EOF. -/
theorem dumpSaid_end {lib : BinTexts} {grow : Growth} {defs : List ReportDef} {mem : Ptr → Msg} (fuel : Nat) {q : Queue} {mode : Bool}
    {ls : List Line} (h : dumpSaid lib grow defs mem fuel q mode = .ret (some ls)) : ls.getLast? = some ⟨3, ascii "EOF", []⟩ := by
  induction fuel generalizing q mode ls with
  | zero => cases h
  | succ fuel ih =>
    rw [dumpSaid] at h
    cases hq : q.head with
    | none => rw [hq] at h; cases h; rfl
    | some p =>
      rw [hq] at h
      dsimp only at h
      cases hx : readFrameQueueT grow defs mem (mem p).dir q with
      | panic => rw [hx] at h; cases h
      | ret x =>
        obtain ⟨q', x⟩ := x
        rw [hx] at h
        simp only [Out.bind_ret] at h
        cases x with
        | error f =>
          dsimp only at h
          by_cases he : f.err = .eof
          · rw [if_pos he] at h; cases h; rfl
          · rw [if_neg he] at h
            cases hm : dumpSaid lib grow defs mem fuel q' mode with
            | panic => rw [hm] at h; cases h
            | ret more =>
              rw [hm] at h
              cases more with
              | none => cases h
              | some more => cases h; rw [List.getLast?_cons, ih hm]; rfl
        | ok f =>
          dsimp only at h
          cases hy : readSaid lib (dirPrefix (mem p).dir) mode f with
          | panic => rw [hy] at h; cases h
          | ret y =>
            rw [hy] at h
            simp only [Out.bind_ret] at h
            cases hm : dumpSaid lib grow defs mem fuel q' y.1 with
            | panic => rw [hm] at h; cases h
            | ret more =>
              rw [hm] at h
              cases more with
              | none => cases h
              | some more => cases h; rw [List.getLast?_cons, List.getLast?_append, ih hm]; rfl

/-- C104. The viewer ends with a fatal error exactly on the traces it cannot read; the message is what is wrong with the first line
that is not a message, or else what was wrong with reading the file. -/
theorem C104_fatal (lib : BinTexts) (os : Err → Bytes) (hos : ∀ e, e = .eof ∨ e = .tooLong → os e = plainText e) (content : Bytes)
    (ending : Option Err) {lines : List Bytes} {rs : List (Except Bytes Msg)} (h : Lines content lines) (ht : Tells 0 (shortLines lines) rs)
    (grow : Growth) (defs : List ReportDef) (fuel : Nat) (x : Bytes) :
    viewSaid lib os grow defs fuel (newReader content ending) = .ret (some [⟨1, x, []⟩]) ↔
      ((firstError rs).orElse fun _ => endText os lines ending) = some x := by
  rw [← C104_load os hos content ending h ht x]
  constructor
  · intro hv
    cases hl : loadFault os (newReader content ending) with
    | error f =>
      rw [viewSaid, hl] at hv
      simp only [Out.ret.injEq, Option.some.injEq, List.cons.injEq, Line.mk.injEq, and_true] at hv
      obtain ⟨_, rfl⟩ := hv
      exact ⟨f.err, rfl⟩
    | ok ms =>
      rw [viewSaid, hl] at hv
      dsimp only at hv
      cases hq : enqueueAll (fun p => (ms[p]?).getD Msg.zero) (List.range ms.length) Queue.empty with
      | panic => rw [hq] at hv; cases hv
      | ret q =>
        rw [hq] at hv
        exact absurd (dumpSaid_end fuel hv) (by simp)
  · rintro ⟨e, he⟩
    rw [viewSaid, he]
    rfl

/-- A trace with a comment. -/
example : viewSaid ⟨fun _ => [], fun _ => []⟩ plainText (fun _ n => n) defaultReportDefs 5 (newReader (ascii "# a comment\n< 55 02\n") none) =
    .ret (some [⟨1, ascii "trace dir unmarshal: unknown symbol '#'", []⟩]) := by decide +kernel

/-- A trace with a report of an unknown id, and one with a damaged packet. -/
example : viewSaid ⟨fun _ => [], fun _ => []⟩ plainText (fun _ n => n) defaultReportDefs 5
      (newReader (ascii "> 63 00 01 02\n< 01 00 55 02 00 01 00\n") none) =
    .ret (some [⟨2, ascii ">> FRAME", [("len", .num 0), ("error", .text (ascii "report id no found: 99"))]⟩,
      ⟨4, ascii "<< FRAME", [("len", .num 5)]⟩,
      ⟨2, ascii "<< PACKET", [("len", .num 0), ("error", .text (ascii "invalid checksum"))]⟩,
      ⟨3, ascii "EOF", []⟩]) := by decide +kernel

/-! ### the text on the screen -/

theorem fieldsShown_exists (errText : Err → Bytes) (l : List (String × Val)) (h : ∀ f ∈ l, match f.2 with
    | .num n => n < 2 ^ 63
    | _ => True) : FieldsShown errText l (l.map fun f => (ascii f.1, f.2.show errText)) := by
  induction l with
  | nil => exact .nil
  | cons f l ih =>
    obtain ⟨k, v⟩ := f
    have ih := ih fun f hf => h f (by simp [hf])
    have hv := h (k, v) (by simp)
    cases v with
    | num n =>
      dsimp only at hv
      exact .num (formatInt10_text n (Nat.lt_trans hv (by decide))) ih
    | text b => exact .text ih
    | err e => exact .err ih

theorem fieldsShown_unique {w : Err → Bytes} {l : List (String × Val)} {d d' : List (Bytes × Bytes)} (h : FieldsShown w l d)
    (h' : FieldsShown w l d') : d = d' := by
  induction h generalizing d' with
  | nil => cases h'; rfl
  | num h1 _ ih => cases h' with | num h2 h3 => rw [ih h3, numberText_unique (by decide) h1 h2]
  | text _ ih => cases h' with | text h3 => rw [ih h3]
  | err _ ih => cases h' with | err h3 => rw [ih h3]

/-- C104. What is written to the terminal for a line of the log: the level, the time, the message and the fields, sorted, numbers in
decimal, errors by their texts. -/
theorem C104_printed (errText : Err → Bytes) (ts : Int) (h0 : 0 ≤ ts) (h1 : ts < 2 ^ 63) (l : Line) (hl : Presentable l) (t : Bytes) :
    Formats false (l.entry errText ts) t ↔
      ∃ data, FieldsShown errText l.fields data ∧ LogLine l.level.toNat (ts.toNat / 1000) l.message data t := by
  obtain ⟨h2, h3, h4⟩ := hl
  have hs := fieldsShown_exists errText l.fields h4
  rw [C81_line (l.entry errText ts) (UInt32.le_iff_toNat_le.2 h2) h0 h1 (by
    rw [Line.entry, List.map_map]
    exact h3)]
  exact ⟨fun h => ⟨_, hs, h⟩, fun ⟨_, hd, h⟩ => by rw [fieldsShown_unique hd hs] at h; exact h⟩

example : Formats false (Line.entry (fun _ => []) 1500000 ⟨2, ascii "<< FRAME", [("len", .num 0), ("error", .text (ascii "invalid checksum"))]⟩)
    (ascii "ERRO[0000.001500] << FRAME                                      error=invalid checksum len=0\n") :=
  ⟨_, [ascii "error", ascii "len"], .refl _, by
    simp only [Line.entry, List.map_cons, List.map_nil]
    exact .swap _ _ _, by decide +kernel, by decide +kernel⟩

theorem silent_said {evs : List Event} (h : ∀ ev ∈ evs, isError ev = false) : ∀ ev ∈ silent evs, isError ev.1 = true → ev.2 ≠ none := by
  intro ev hev he
  obtain ⟨e, h1, rfl⟩ := List.mem_map.1 hev
  rw [h e h1] at he
  cases he

theorem modeEvents_fine (m m' : Bool) : ∀ ev ∈ modeEvents m m', isError ev = false := by
  intro ev hev
  rw [modeEvents] at hev
  split at hev
  · cases hev
  · rw [List.mem_singleton.1 hev]; rfl

theorem handleEvents_fine {σ : Type} {D : Device σ} {clock : Clock} {dlog : Command → Ctx σ → List Line} {cmds : List Command}
    {c c' : Ctx σ} {news : List (List Command)} {evs : List Event} (h : HandleEvents D clock dlog cmds c c' news evs) :
    ∀ ev ∈ evs, isError ev = false := by
  induction h with
  | nil => intro ev hev; cases hev
  | @cons cmd cmds c c' c'' new news evs _ _ ih =>
    intro ev hev
    rcases List.mem_append.1 hev with hev | hev
    · rw [handlerEvents] at hev
      split at hev
      · obtain ⟨l, _, rfl⟩ := List.mem_map.1 hev; rfl
      · split at hev
        all_goals
          first
          | (rw [List.mem_singleton.1 hev]; rfl)
          | cases hev
    · exact ih ev hev

theorem in_said {lib : BinTexts} {m m' : Bool} {l : List (Except Bytes Bytes)} {cmds : List Command} {evs : List Said}
    (h : InSaid lib m l m' cmds evs) : ∀ ev ∈ evs, isError ev.1 = true → ev.2 ≠ none := by
  induction h with
  | nil => intro ev hev; cases hev
  | bad _ ih =>
    intro ev hev
    rcases List.mem_cons.1 hev with rfl | hev
    · intro _; simp
    · exact ih ev hev
  | packet _ _ ih =>
    intro ev hev
    rcases List.mem_append.1 hev with hev | hev
    · refine silent_said (fun ev hev => ?_) ev hev
      simp only [List.mem_cons, List.mem_append, List.not_mem_nil, or_false] at hev
      rcases hev with rfl | hev | rfl
      · rfl
      · exact modeEvents_fine _ _ ev hev
      · rfl
    · exact ih ev hev
  | refused _ _ _ ih =>
    intro ev hev
    rcases List.mem_append.1 hev with hev | hev
    · refine silent_said (fun ev hev => ?_) ev hev
      rcases List.mem_cons.1 hev with rfl | hev
      · rfl
      · exact modeEvents_fine _ _ ev hev
    · rcases List.mem_cons.1 hev with rfl | hev
      · intro _; simp
      · exact ih ev hev

theorem out_said {lib : BinTexts} {werr : Nat → Option Fault} {k : Nat} {m m' : Bool} {cmds : List Command} {w : List Bytes}
    {evs : List Said} (h : OutSaid lib werr k m cmds m' w evs) : ∀ ev ∈ evs, isError ev.1 = true → ev.2 ≠ none := by
  have hw : ∀ f k, isError (.frameOut f (ofFault (werr k)).1) = true → (ofFault (werr k)).2 ≠ none := by
    intro f k
    cases werr k with
    | none => intro h; cases h
    | some e => intro _; simp [ofFault]
  induction h with
  | nil => intro ev hev; cases hev
  | packet _ _ _ ih =>
    intro ev hev
    rcases List.mem_append.1 hev with hev | hev
    · refine silent_said (fun ev hev => ?_) ev hev
      simp only [List.mem_cons, List.mem_append, List.not_mem_nil, or_false] at hev
      rcases hev with rfl | hev | rfl
      · rfl
      · exact modeEvents_fine _ _ ev hev
      · rfl
    · rcases List.mem_cons.1 hev with rfl | hev
      · exact hw _ _
      · exact ih ev hev
  | refused _ _ _ ih =>
    intro ev hev
    rcases List.mem_append.1 hev with hev | hev
    · refine silent_said (fun ev hev => ?_) ev hev
      rcases List.mem_cons.1 hev with rfl | hev
      · rfl
      · exact modeEvents_fine _ _ ev hev
    · rcases List.mem_cons.1 hev with rfl | hev
      · intro _; simp
      · rcases List.mem_cons.1 hev with rfl | hev
        · exact hw _ _
        · exact ih ev hev

/-- C104. No error of a run is without its text. -/
theorem C104_always {σ : Type} {D : Device σ} {clock : Clock} {dlog : Command → Ctx σ → List Line} {lib : BinTexts}
    {werr : Nat → Option Fault} {k : Nat} {s s' : Srv σ} {reads : List (Except Fault Slice)} {w : List Bytes} {evs : List Said}
    (h : RunSaid D clock dlog lib werr k s reads s' w evs) : ∀ ev ∈ evs, isError ev.1 = true → ev.2 ≠ none := by
  have h1 : ∀ ev ∈ [((.finished, none) : Said)], isError ev.1 = true → ev.2 ≠ none := by
    intro ev hev he
    rw [List.mem_singleton.1 hev] at he
    cases he
  induction h with
  | done => exact h1
  | eof => exact h1
  | error _ _ ih =>
    intro ev hev
    rcases List.mem_cons.1 hev with rfl | hev
    · intro _; simp
    · exact ih ev hev
  | frame _ hi hh ho _ ih =>
    intro ev hev
    simp only [List.mem_cons, List.mem_append] at hev
    rcases hev with rfl | ((hev | hev) | hev) | hev
    · intro he; cases he
    · exact in_said hi ev hev
    · exact silent_said (handleEvents_fine hh) ev hev
    · exact out_said ho ev hev
    · exact ih ev hev

/-- C104. So every line of the log can be printed, if those of the device itself can and no length is beyond an int. -/
theorem C104_printable {pre : String} {evs : List Said} {ls : List Line} (h : SaidAll pre evs ls)
    (ht : ∀ ev ∈ evs, isError ev.1 = true → ev.2 ≠ none) (hd : ∀ l t, (.device l, t) ∈ evs → Printable (withText t l))
    (hn : ∀ l ∈ ls, ∀ n, ("len", .num n) ∈ l.fields → n < 2 ^ 63) : ∀ l ∈ ls, Printable l := by
  have w1 : ∀ (x : Bytes) (level : Level) (msg : Bytes) (v : Val), withText (some x) ⟨level, msg, [("len", v)]⟩ = ⟨level, msg, [("len", v)]⟩ := by
    intro x level msg v
    simp [withText]
  have w2 : ∀ (x : Bytes) (level : Level) (msg : Bytes) (v w : Val),
      withText (some x) ⟨level, msg, [("len", v), ("error", w)]⟩ = ⟨level, msg, [("len", v), ("error", .text x)]⟩ := by
    intro x level msg v w
    simp [withText]
  have k1 : ∀ (level : Level) (msg : Bytes) (n : Nat), level.toNat ≤ 6 → n < 2 ^ 63 → Printable ⟨level, msg, [("len", .num n)]⟩ := by
    intro level msg n h1 h2
    exact ⟨⟨h1, by show ((["len"] : List String).map ascii).Nodup; decide +kernel, by simpa using h2⟩, by simp⟩
  have k2 : ∀ (level : Level) (msg x : Bytes) (n : Nat), level.toNat ≤ 6 → n < 2 ^ 63 →
      Printable ⟨level, msg, [("len", .num n), ("error", .text x)]⟩ := by
    intro level msg x n h1 h2
    exact ⟨⟨h1, by show ((["len", "error"] : List String).map ascii).Nodup; decide +kernel, by simpa using h2⟩, by simp⟩
  have k3 : ∀ (level : Level) (msg a b c : Bytes), level.toNat ≤ 6 →
      Printable ⟨level, msg, [("id", .text a), ("trx", .text b), ("type", .text c)]⟩ := by
    intro level msg a b c h1
    exact ⟨⟨h1, by show ((["id", "trx", "type"] : List String).map ascii).Nodup; decide +kernel, by simp⟩, by simp⟩
  have k4 : ∀ (level : Level) (msg a b c x : Bytes), level.toNat ≤ 6 →
      Printable ⟨level, msg, [("id", .text a), ("trx", .text b), ("type", .text c), ("error", .text x)]⟩ := by
    intro level msg a b c x h1
    exact ⟨⟨h1, by show ((["id", "trx", "type", "error"] : List String).map ascii).Nodup; decide +kernel, by simp⟩, by simp⟩
  have k5 : ∀ (level : Level) (msg : Bytes), level.toNat ≤ 6 → Printable ⟨level, msg, []⟩ := by
    intro level msg h1
    exact ⟨⟨h1, by show (([] : List String).map ascii).Nodup; decide +kernel, by simp⟩, by simp⟩
  induction h with
  | nil => intro l hl; cases hl
  | @cons ev l evs ls hs _ ih =>
    have ih := ih (fun ev hev => ht ev (by simp [hev])) (fun l t hl => hd l t (by simp [hl])) (fun l hl => hn l (by simp [hl]))
    intro l' hl'
    rcases List.mem_cons.1 hl' with rfl | hl'
    · have ht := ht ev (by simp)
      have hd : ∀ l t, ev = (.device l, t) → Printable (withText t l) := fun l t hl => hd l t (by rw [← hl]; simp)
      have hm := hn _ hl'
      clear hn hl'
      obtain ⟨ev, x⟩ := ev
      dsimp only at hs ht hd hm ⊢
      cases x with
      | none =>
        rw [withText] at hm ⊢
        cases hs with
        | frameIn => exact k1 _ _ _ (by decide) (hm _ (by simp))
        | packetIn => exact k1 _ _ _ (by decide) (hm _ (by simp))
        | on => exact k5 _ _ (by decide)
        | off => exact k5 _ _ (by decide)
        | cmdIn hc => obtain ⟨a, b, c, _, _, _, rfl⟩ := hc; exact k3 _ _ _ _ _ (by decide)
        | unsupported => exact k5 _ _ (by decide)
        | device => exact hd _ none rfl
        | cmdOut hc => obtain ⟨a, b, c, _, _, _, rfl⟩ := hc; exact k3 _ _ _ _ _ (by decide)
        | packetOut => exact k1 _ _ _ (by decide) (hm _ (by simp))
        | frameOut => exact k1 _ _ _ (by decide) (hm _ (by simp))
        | finished => exact k5 _ _ (by decide)
        | _ => exact absurd rfl (ht rfl)
      | some x =>
        cases hs with
        | device => exact hd _ (some x) rfl
        | cmdInErr hc =>
          rw [withText_fields hc]
          obtain ⟨a, b, c, _, _, _, rfl⟩ := hc
          exact k4 _ _ _ _ _ _ (by decide)
        | cmdIn hc => obtain ⟨a, b, c, _, _, _, rfl⟩ := hc; simpa [withText] using k3 4 (ascii pre ++ ascii "CMD") a b c (by decide)
        | cmdOut hc => obtain ⟨a, b, c, _, _, _, rfl⟩ := hc; simpa [withText] using k3 4 (ascii ">> CMD") a b c (by decide)
        | on => exact k5 _ _ (by decide)
        | off => exact k5 _ _ (by decide)
        | unsupported => exact k5 _ _ (by decide)
        | finished => exact k5 _ _ (by decide)
        | frameIn => rw [w1] at hm ⊢; exact k1 _ _ _ (by decide) (hm _ (by simp))
        | packetIn => rw [w1] at hm ⊢; exact k1 _ _ _ (by decide) (hm _ (by simp))
        | packetOut => rw [w1] at hm ⊢; exact k1 _ _ _ (by decide) (hm _ (by simp))
        | frameOut => rw [w1] at hm ⊢; exact k1 _ _ _ (by decide) (hm _ (by simp))
        | frameInErr => rw [w2] at hm ⊢; exact k2 _ _ _ _ (by decide) (hm _ (by simp))
        | packetInErr => rw [w2] at hm ⊢; exact k2 _ _ _ _ (by decide) (hm _ (by simp))
        | packetOutErr => rw [w2] at hm ⊢; exact k2 _ _ _ _ (by decide) (hm _ (by simp))
        | frameOutErr => rw [w2] at hm ⊢; exact k2 _ _ _ _ (by decide) (hm _ (by simp))
    · exact ih l' hl'

end Props
