import Verif.Lemmas.Alias

/-! # Decoded data and later reads -/

namespace Props
open Go Spec Ipod Ipod.Alias

/-- Other memory with arrays of the same lengths. -/
theorem bump (m : Mem) (r : Ref) :
    content (m.map (List.map (· + 1))) r = (content m r).map (· + 1) := by
  unfold content
  have : (m.map (List.map (· + 1))).getD r.arr [] = (m.getD r.arr []).map (· + 1) := by
    simp only [List.getD_eq_getElem?_getD, List.getElem?_map]
    cases m[r.arr]? <;> rfl
  rw [this, ← List.map_drop, ← List.map_take]

theorem bump_ne (b : Bytes) (h : b.map (· + 1) = b) : b = [] := by
  cases b with
  | nil => rfl
  | cons x b =>
    simp only [List.map_cons, List.cons.injEq] at h
    have h1 := congrArg UInt8.toNat h.1
    rw [UInt8.toNat_add] at h1
    have h2 := x.toNat_lt
    have h3 : (1 : UInt8).toNat = 1 := rfl
    omega

/-- C63, part: of the commands decoded from a frame, exactly the ones that do not point into it have a value that later
writes to the memory of the frame cannot change. Missing: the others, see `C63_fails`. -/
theorem C63_stable_iff_partial {m : Mem} {mode mode' : Bool} {frame : Ref} (hw : WF m frame) {cmds : List Alias.Command}
    (h : Alias.readCommands m mode frame = .ret (mode', cmds)) (c : Alias.Command) (hc : c ∈ cmds) :
    (∀ m' : Mem, m'.map List.length = m.map List.length → c.now m' = c.now m) ↔ ¬ PointsIntoFrame (c.now m) := by
  have hp := (readCommands_ok hw h c hc).2
  constructor
  · intro hs hpt
    have h1 := hs (m.map (List.map (· + 1))) (by simp [Function.comp_def])
    obtain ⟨id, trx, p⟩ := c
    have h2 : p.now (m.map (List.map (· + 1))) = p.now m := congrArg Ipod.Command.payload h1
    dsimp only at hp
    cases p with
    | owned p =>
      have e0 : (Alias.Command.now m ⟨id, trx, .owned p⟩).payload = p := rfl
      cases hpt with
      | unknown b h3 h4 =>
        rw [e0] at h3
        subst h3
        rcases hp with h | ⟨t, v, h, _⟩ <;> cases h
      | protocol ts u t i s h3 h4 h5 h6 =>
        rw [e0] at h3
        subst h3
        rcases hp with h | ⟨t, v, h, ht⟩
        · cases h
        · injection h with h _
          exact ht h.symm
    | unknown r =>
      have h3 : content (m.map (List.map (· + 1))) r = content m r := Ipod.Payload.unknown.inj h2
      rw [bump] at h3
      cases hpt with
      | unknown b h4 h5 =>
        have h4 : content m r = b := Ipod.Payload.unknown.inj h4
        rw [← h4] at h5
        exact h5 (bump_ne _ h3)
      | protocol ts u t i s h4 h5 h6 h7 => cases h4
    | tokens l =>
      cases hpt with
      | unknown b h4 h5 => cases h4
      | protocol ts u t i s h4 h5 h6 h7 =>
        have h8 : l.map (·.now (m.map (List.map (· + 1)))) = l.map (·.now m) := by
          have : (Ipod.Payload.ptr (.gen .SetFIDTokenValues) (l.map (·.now (m.map (List.map (· + 1)))), ())) =
              .ptr (.gen .SetFIDTokenValues) (l.map (·.now m), ()) := h2
          injection this with _ this
          exact congrArg Prod.fst this
        have h9 : ts = l.map (·.now m) := by
          have : (Ipod.Payload.ptr (.gen .SetFIDTokenValues) (l.map (·.now m), ())) =
              .ptr (.gen .SetFIDTokenValues) (ts, u) := h4
          injection this with _ this
          exact (congrArg Prod.fst this).symm
        rw [h9] at h5
        obtain ⟨v, hv, rfl⟩ := List.mem_map.1 h5
        have h10 := List.map_inj_left.1 h8 v hv
        have h11 := hp v hv
        obtain ⟨vid, tok⟩ := v
        cases tok with
        | owned x => exact h11 i s h6
        | eaProtocol j r =>
          have e1 : FIDToken.eaProtocol j (content (m.map (List.map (· + 1))) r) = .eaProtocol j (content m r) :=
            congrArg FIDTokenValue.token h10
          have e2 : FIDToken.eaProtocol j (content m r) = .eaProtocol i s := h6
          cases e2
          injection e1 with _ e1
          rw [bump] at e1
          exact h7 (bump_ne _ e1)
  · intro hn m' hm
    have hext : Extends m m' := by
      have hl : m'.length = m.length := by simpa using congrArg List.length hm
      refine ⟨by omega, fun i hi => ?_⟩
      have : (m'.map List.length)[i]? = (m.map List.length)[i]? := by rw [hm]
      rw [List.getElem?_map, List.getElem?_map, List.getElem?_eq_getElem hi, List.getElem?_eq_getElem (hl ▸ hi)] at this
      simpa [List.getElem?_eq_getElem hi, List.getElem?_eq_getElem (hl ▸ hi)] using this
    have hempty : ∀ {r : Ref}, WF m r → content m r = [] → content m' r = content m r := by
      intro r hr h0
      have h1 := content_length hr
      have h2 := content_length (hext.wf hr)
      rw [h0] at h1 ⊢
      exact List.eq_nil_of_length_eq_zero (by rw [h2, ← h1]; rfl)
    obtain ⟨id, trx, p⟩ := c
    refine congrArg (Ipod.Command.mk id trx) ?_
    dsimp only at hp ⊢
    cases p with
    | owned p => rfl
    | unknown r =>
      have : content m r = [] := by
        cases hb : content m r with
        | nil => rfl
        | cons x b => exact absurd (.unknown (x :: b) (congrArg Ipod.Payload.unknown hb) (by simp)) hn
      exact congrArg Ipod.Payload.unknown (hempty hp this)
    | tokens l =>
      have : l.map (·.now m') = l.map (·.now m) := by
        apply List.map_inj_left.2
        intro v hv
        have h1 := hp v hv
        obtain ⟨vid, tok⟩ := v
        refine congrArg (FIDTokenValue.mk vid) ?_
        cases tok with
        | owned x => rfl
        | eaProtocol j r =>
          have : content m r = [] := by
            cases hb : content m r with
            | nil => rfl
            | cons x b =>
              exact absurd (.protocol (l.map (·.now m)) () _ j (x :: b) rfl (List.mem_map_of_mem (f := (·.now m)) hv)
                (congrArg (FIDToken.eaProtocol j) hb) (by simp)) hn
          exact congrArg (FIDToken.eaProtocol j) (hempty h1 this)
      exact congrArg (fun l => Ipod.Payload.ptr (.gen .SetFIDTokenValues) (l, ())) this

theorem bytes_mem (b : Buf) : content b.mem b.bytes = b.cur.data := by
  unfold content
  show ((b.mem.getD b.old.length []).drop 0).take b.cur.data.length = b.cur.data
  rw [mem_cur]
  simp

/-- C63: when the next frame is read into the same array, a slice into the old frame shows the bytes the new frame has at its
place. -/
theorem C63_overwritten {grow : Growth} {defs : List Hid.ReportDef} {rs rs' : List (Except Err Hid.Report)} {b b' : Buf}
    {f : Ref} (h : readFrame grow defs rs b = .ret (rs', b', .ok f)) (hold : b'.old = b.old) {r : Ref}
    (hr : r.arr = b.bytes.arr) (hl : r.off + r.len ≤ f.len) :
    content b'.mem r = ((content b'.mem f).drop r.off).take r.len := by
  cases readFrameLoop_frame h
  rw [bytes_mem]
  unfold content
  rw [hr, show b.bytes.arr = b'.old.length by rw [hold]; rfl, mem_cur]
  have hl : r.off + r.len ≤ b'.cur.data.length := hl
  rw [List.drop_append_of_le_length (by omega), List.take_append_of_le_length (by rw [List.length_drop]; omega)]

/-- The tables of cmd/ipod have no report too small for its link control byte. -/
theorem defs_nonneg : (∀ d ∈ Hid.defaultReportDefs, 0 ≤ d.maxPayload) ∧ (∀ d ∈ Hid.legacyReportDefs, 0 ≤ d.maxPayload) := by
  decide

/-- C63: nobody on the other side of the wire notices: on every input the server writes the same frames as one whose data
does not change, or both panic. -/
theorem C63_unnoticed {clock : Clock} {grow : Growth} {defs : List Hid.ReportDef} (hd : ∀ d ∈ defs, 0 ≤ d.maxPayload)
    (reads : List Hid.ReadRes) :
    (Alias.serve clock grow defs reads ⟨Srv.init DevGeneral.zero, []⟩ = .panic ∧
      Ipod.serve devGeneral clock grow defs reads (Srv.init DevGeneral.zero) = .panic) ∨
    ∃ b t s out, Alias.serve clock grow defs reads ⟨Srv.init DevGeneral.zero, []⟩ = .ret (b, t, out) ∧
      Ipod.serve devGeneral clock grow defs reads (Srv.init DevGeneral.zero) = .ret (s, out) := by
  rcases processFrames_same (clock := clock) (grow := grow) hd reads.length (reads.map Hid.rawReadReport) ⟨[], ⟨[], []⟩⟩
    (s := Srv.init DevGeneral.zero) (t := ⟨Srv.init DevGeneral.zero, []⟩) rfl rfl with ⟨h1, h2⟩ | ⟨b, t, s, out, h1, h2, _⟩
  · exact .inl ⟨h1, h2⟩
  · exact .inr ⟨b, t, s, out, h1, h2⟩

example (clock : Clock) (reads : List Hid.ReadRes) :
    (Alias.serve clock (fun _ n => n) Hid.defaultReportDefs reads ⟨Srv.init DevGeneral.zero, []⟩ = .panic ∧
      Ipod.serve devGeneral clock (fun _ n => n) Hid.defaultReportDefs reads (Srv.init DevGeneral.zero) = .panic) ∨
    ∃ b t s out, Alias.serve clock (fun _ n => n) Hid.defaultReportDefs reads ⟨Srv.init DevGeneral.zero, []⟩ = .ret (b, t, out) ∧
      Ipod.serve devGeneral clock (fun _ n => n) Hid.defaultReportDefs reads (Srv.init DevGeneral.zero) = .ret (s, out) :=
  C63_unnoticed (by decide) reads

/-- C63, part: whatever the server reads, in the end it holds the tokens it received, in order, except that the bytes (not the
number of bytes) of EAProtocol strings may be others. Missing: those bytes, see `C63_fails`. -/
theorem C63_held_partial {clock : Clock} {grow : Growth} {defs : List Hid.ReportDef} (hd : ∀ d ∈ defs, 0 ≤ d.maxPayload)
    {reads : List Hid.ReadRes} {b : Buf} {t : Alias.Srv} {out : List Bytes}
    (h : Alias.serve clock grow defs reads ⟨Srv.init DevGeneral.zero, []⟩ = .ret (b, t, out)) {s : Ipod.Srv DevGeneral}
    {out' : List Bytes} (h' : Ipod.serve devGeneral clock grow defs reads (Srv.init DevGeneral.zero) = .ret (s, out')) :
    Paired SameButString s.ctx.dev.tokens (t.now b.mem).ctx.dev.tokens := by
  have := processFrames_agree hd reads.length (reads.map Hid.rawReadReport) ⟨[], ⟨[], []⟩⟩ b
    (s := Srv.init DevGeneral.zero) (t := ⟨Srv.init DevGeneral.zero, []⟩) rfl rfl h h' .nil
  show Paired SameButString s.ctx.dev.tokens (t.held.map (·.now b.mem))
  generalize t.held = held at this
  generalize s.ctx.dev.tokens = ts at this
  induction this with
  | nil => exact .nil
  | @cons v w vs ws h1 _ ih =>
    refine .cons ?_ ih
    obtain ⟨h2, h3⟩ := h1
    obtain ⟨vid, tok⟩ := v
    obtain ⟨wid, wtok⟩ := w
    cases h2
    cases tok with
    | owned x => cases h3; exact .inl rfl
    | eaProtocol i r =>
      obtain ⟨hr, str, h4, h5⟩ := h3
      cases h4
      exact .inr ⟨rfl, i, _, _, rfl, rfl, by rw [h5, content_length hr]⟩

/-- The report with a frame of one SetFIDTokenValues command with one EAProtocol token, number 1. -/
def protocolReport (x y chk : UInt8) : Hid.ReadRes :=
  ⟨[0x03, 0x00, 0x55, 0x09, 0x00, 0x39, 0x01, 0x05, 0x00, 0x04, 0x01, x, y, chk], none⟩

/-- The arrays after reading `protocolReport`. -/
def protoMem (x y chk : UInt8) : Mem :=
  [[], [0x55, 0x09, 0x00, 0x39, 0x01, 0x05, 0x00, 0x04, 0x01, x, y, chk] ++ List.replicate 52 0]

theorem proto_unmarshal (x y chk : UInt8) :
    Alias.unmarshalCmd (protoMem x y chk) false ⟨1, 2, 9, 62⟩ =
      .ret (false, ⟨0x0039, none, .tokens [⟨⟨0x00, 0x04⟩, .eaProtocol 0x01 ⟨1, 9, 2, 55⟩⟩]⟩, none) := by
  have hl : registry.lookup TypeId.size 0x0039 7 false = some (.gen .SetFIDTokenValues, false) := by decide +kernel
  unfold Alias.unmarshalCmd
  have h1 : unmarshalLingoCmdID (content (protoMem x y chk) ⟨1, 2, 9, 62⟩) = (.ok 0x0039, [0x01, 0x05, 0x00, 0x04, 0x01, x, y]) := rfl
  rw [h1]
  dsimp only
  have h2 : handleCmdID false 0x0039 = false := by decide +kernel
  have h3 : (Ref.skip ⟨1, 2, 9, 62⟩ ((content (protoMem x y chk) ⟨1, 2, 9, 62⟩).length - [0x01, 0x05, 0x00, 0x04, 0x01, x, y].length)) = ⟨1, 4, 7, 60⟩ := rfl
  rw [h2, h3, hl]
  rfl

theorem proto_handle (clock : Clock) (cmd : Ipod.Command) (ts) (c : Ctx DevGeneral) (hi : cmd.id = 0x0039)
    (hc : cmd.payload = .ptr (.gen .SetFIDTokenValues) (ts, ())) :
    ∃ v, handlePacket devGeneral clock cmd c = .ret { c with
      dev := { c.dev with tokens := c.dev.tokens ++ ts },
      out := c.out ++ [⟨TypeId.id (.gen .RetFIDTokenValueACKs), cmd.trx, .ptr (.gen .RetFIDTokenValueACKs) v⟩] } := by
  have hg : LingoCmdID.lingoID cmd.id = 0x00 := by rw [hi]; decide +kernel
  rw [handlePacket_general _ _ _ _ hg]
  have h1 : afterAudio cmd c = c := by
    unfold afterAudio
    rw [hc]
    rfl
  rw [h1]
  unfold handleGeneral
  rw [hc]
  simp only [respond_eq, foldl_setToken]
  exact ⟨_, rfl⟩

theorem proto_commands {x y chk : UInt8}
    (hp : Alias.readPacket (protoMem x y chk) ⟨1, 0, 12, 64⟩ = .ret (⟨1, 12, 0, 52⟩, .ok ⟨1, 2, 9, 62⟩)) :
    Alias.readCommands (protoMem x y chk) false ⟨1, 0, 12, 64⟩ =
      .ret (false, [⟨0x0039, none, .tokens [⟨⟨0x00, 0x04⟩, .eaProtocol 0x01 ⟨1, 9, 2, 55⟩⟩]⟩]) := by
  rw [Alias.readCommands_eq, hp]
  simp only [proto_unmarshal, Out.bind_ret]
  rw [Alias.readCommands_eq]
  rfl

theorem proto_step (clock : Clock) {x y chk : UInt8}
    (hp : Alias.readPacket (protoMem x y chk) ⟨1, 0, 12, 64⟩ = .ret (⟨1, 12, 0, 52⟩, .ok ⟨1, 2, 9, 62⟩))
    (c : Ctx DevGeneral) (held : List TokenValue) :
    ∃ c' o, Alias.processFrame clock (protoMem x y chk) ⟨⟨false, c⟩, held⟩ ⟨1, 0, 12, 64⟩ =
      .ret (⟨⟨false, c'⟩, held ++ [⟨⟨0x00, 0x04⟩, .eaProtocol 0x01 ⟨1, 9, 2, 55⟩⟩]⟩, o) := by
  have e := proto_commands hp
  unfold Alias.processFrame
  rw [e]
  simp only [Out.bind_ret, List.map_cons, List.map_nil, handleAll]
  generalize hq : Alias.Command.now (protoMem x y chk) _ = cmd
  obtain ⟨v, hv⟩ := proto_handle clock cmd [⟨⟨0x00, 0x04⟩, .eaProtocol 0x01 [x, y]⟩]
    { (Alias.Srv.now (protoMem x y chk) ⟨⟨false, c⟩, held⟩).ctx with out := [] } (by rw [← hq]; rfl) (by rw [← hq]; rfl)
  rw [hv]
  simp only [Out.bind_ret, sendAll, List.nil_append, marshalCmd_eq]
  have h2 : handleCmdID false (TypeId.id (.gen .RetFIDTokenValueACKs)) = false := by decide +kernel
  rw [h2]
  rw [List.foldl_cons, List.foldl_nil, hold_tokens (by show LingoCmdID.lingoID 0x0039 = 0x00; decide +kernel) rfl]
  exact ⟨_, _, rfl⟩
/-- C63 fails: a server that reads two identification tokens, with the protocol strings "ab" and "cd", holds two with the
string "cd". -/
theorem C63_fails (clock : Clock) (grow : Growth) :
    ∃ b t out, Alias.serve clock grow Hid.defaultReportDefs
        [protocolReport 0x61 0x62 0xf0, protocolReport 0x63 0x64 0xec] ⟨Srv.init DevGeneral.zero, []⟩ = .ret (b, t, out) ∧
      (t.now b.mem).ctx.dev.tokens =
        [⟨⟨0x00, 0x04⟩, .eaProtocol 0x01 [0x63, 0x64]⟩, ⟨⟨0x00, 0x04⟩, .eaProtocol 0x01 [0x63, 0x64]⟩] := by
  have h1 : readFrame grow Hid.defaultReportDefs
      ([protocolReport 0x61 0x62 0xf0, protocolReport 0x63 0x64 0xec].map Hid.rawReadReport) ⟨[], ⟨[], []⟩⟩ =
      .ret ([protocolReport 0x63 0x64 0xec].map Hid.rawReadReport,
        ⟨[[]], ⟨[0x55, 0x09, 0x00, 0x39, 0x01, 0x05, 0x00, 0x04, 0x01, 0x61, 0x62, 0xf0], List.replicate 52 0⟩⟩,
        .ok ⟨1, 0, 12, 64⟩) := rfl
  have h2 : readFrame grow Hid.defaultReportDefs ([protocolReport 0x63 0x64 0xec].map Hid.rawReadReport)
      ⟨[[]], ⟨[0x55, 0x09, 0x00, 0x39, 0x01, 0x05, 0x00, 0x04, 0x01, 0x61, 0x62, 0xf0], List.replicate 52 0⟩⟩ =
      .ret ([], ⟨[[]], ⟨[0x55, 0x09, 0x00, 0x39, 0x01, 0x05, 0x00, 0x04, 0x01, 0x63, 0x64, 0xec], List.replicate 52 0⟩⟩,
        .ok ⟨1, 0, 12, 64⟩) := rfl
  obtain ⟨c1, o1, h3⟩ := proto_step clock (x := 0x61) (y := 0x62) (chk := 0xf0) rfl ⟨DevGeneral.zero, [], 0, [], 0⟩ []
  obtain ⟨c2, o2, h4⟩ := proto_step clock (x := 0x63) (y := 0x64) (chk := 0xec) rfl c1
    [⟨⟨0x00, 0x04⟩, .eaProtocol 0x01 ⟨1, 9, 2, 55⟩⟩]
  unfold Alias.serve
  simp only [List.length_cons, List.length_nil, Nat.zero_add, Nat.reduceAdd, Alias.processFrames, h1, Out.bind_ret]
  have e1 : Buf.mem ⟨[[]], ⟨[0x55, 0x09, 0x00, 0x39, 0x01, 0x05, 0x00, 0x04, 0x01, 0x61, 0x62, 0xf0], List.replicate 52 0⟩⟩ =
      protoMem 0x61 0x62 0xf0 := rfl
  have e2 : Buf.mem ⟨[[]], ⟨[0x55, 0x09, 0x00, 0x39, 0x01, 0x05, 0x00, 0x04, 0x01, 0x63, 0x64, 0xec], List.replicate 52 0⟩⟩ =
      protoMem 0x63 0x64 0xec := rfl
  simp only [Srv.init, List.nil_append] at h3 ⊢
  rw [e1, h3]
  simp only [Out.bind_ret, h2]
  rw [e2, h4]
  exact ⟨_, _, _, rfl, rfl⟩

example : ∃ mode' cmds, Alias.readCommands (protoMem 0x61 0x62 0xf0) false ⟨1, 0, 12, 64⟩ = .ret (mode', cmds) ∧
    WF (protoMem 0x61 0x62 0xf0) ⟨1, 0, 12, 64⟩ ∧ ∃ c ∈ cmds, PointsIntoFrame (c.now (protoMem 0x61 0x62 0xf0)) :=
  ⟨_, _, proto_commands rfl, ⟨by decide, by decide⟩, _, List.mem_singleton.2 rfl,
    .protocol _ _ _ 0x01 [0x61, 0x62] rfl (List.mem_singleton.2 rfl) rfl (by simp)⟩

example : readFrame (fun _ _ => 0) Hid.defaultReportDefs ([protocolReport 0x63 0x64 0xec].map Hid.rawReadReport)
    ⟨[[]], ⟨[0x55, 0x09, 0x00, 0x39, 0x01, 0x05, 0x00, 0x04, 0x01, 0x61, 0x62, 0xf0], List.replicate 52 0⟩⟩ =
    .ret ([], ⟨[[]], ⟨[0x55, 0x09, 0x00, 0x39, 0x01, 0x05, 0x00, 0x04, 0x01, 0x63, 0x64, 0xec], List.replicate 52 0⟩⟩,
      .ok ⟨1, 0, 12, 64⟩) := rfl

end Props
