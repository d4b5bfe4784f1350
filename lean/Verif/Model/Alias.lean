import Verif.Model.Server

/-!
# Model of the server loop on memory

`Model.Server` treats the bytes a command holds as values. Here they are slices of the array the HID decoder reads its
frames into, which the next `ReadFrame` overwrites. Only two places of the code keep such slices: `UnmarshalCmd` in an
`UnknownPayload` (cmd.go:135) and `FIDEAProtocolToken.UnmarshalBinary` in `ProtocolString` (general.go:557). All other
decoders read values (`binary.Read`, `ReadByte`) or copy into arrays of their own: `make` with `copy` (general.go:147, 170,
276, 310, 669, 751, extremote.go:324, 341, 358), `append([]byte(nil), …)` (general.go:898), `ioutil.ReadAll`
(general.go:191), `ReadBytes` (general.go:525), `Read` into a new slice (general.go:527-537).
-/

namespace Ipod.Alias
open Go

/-- A slice header: the array (numbered in order of allocation) and position it points to, `len` and `cap`.
See hid/hid.go:85,119, packet.go:23,53,61, cmd.go:125,134, lingo-general/general.go:266-311,550-559,694-713 (the slices that may share an array). -/
structure Ref where
  arr : Nat
  off : Nat
  len : Nat
  cap : Nat
deriving DecidableEq, Repr

/-- The contents of the arrays the decoder's buffer has had. See hid/hid.go:85. -/
abbrev Mem := List Bytes

/-- The bytes a slice shows. See hid/hid.go:119, packet.go:61, lingo-general/general.go:555-559. -/
def content (m : Mem) (r : Ref) : Bytes := ((m.getD r.arr []).drop r.off).take r.len

/-- A slice with the bytes behind it, up to its capacity. See packet.go:53,61,69. -/
def view (m : Mem) (r : Ref) : Slice := ⟨content m r, ((m.getD r.arr []).drop (r.off + r.len)).take (r.cap - r.len)⟩

namespace Ref

/-- `s[:hi]` (hi up to the capacity). See packet.go:53. -/
def upTo (r : Ref) (hi : Nat) : Out Ref := if hi ≤ r.cap then .ret { r with len := hi } else .panic

/-- `s[lo:]`. See packet.go:69,74. -/
def fromLo (r : Ref) (lo : Nat) : Out Ref :=
  if lo ≤ r.len then .ret ⟨r.arr, r.off + lo, r.len - lo, r.cap - lo⟩ else .panic

/-- `s[lo:hi]`. See packet.go:61. -/
def range (r : Ref) (lo hi : Nat) : Out Ref :=
  if lo ≤ hi ∧ hi ≤ r.cap then .ret ⟨r.arr, r.off + lo, hi - lo, r.cap - lo⟩ else .panic

/-- The unread bytes of a `bytes.Buffer` over the slice after reading `n` bytes, or what `Next(n)` leaves.
See cmd.go:125-148, lingo-general/general.go:621-706. -/
def skip (r : Ref) (n : Nat) : Ref := ⟨r.arr, r.off + n, r.len - n, r.cap - n⟩

/-- What `(*bytes.Buffer).Next(n)` returns: `b.buf[b.off : b.off+n]`, `n` at most the length. See lingo-general/general.go:694-706. -/
def next (r : Ref) (n : Nat) : Ref := { r with len := min n r.len }

end Ref

/-! ### The decoder's buffer -/

/-- `hid.Decoder.buf` (hid.go:85): the array in use and the ones used before, which slices may still point to. -/
structure Buf where
  old : List Bytes
  cur : Slice
deriving DecidableEq, Repr

/-- All arrays, the one in use last. See hid/hid.go:85. -/
def Buf.mem (b : Buf) : Mem := b.old ++ [b.cur.data ++ b.cur.spare]

/-- `(*bytes.Buffer).Reset`. See hid/hid.go:90,106,110. -/
def Buf.reset (b : Buf) : Buf := { b with cur := b.cur.reset }

/-- `(*bytes.Buffer).Write`: in place if the capacity suffices, else to a new array. See hid/hid.go:107,111,113,115. -/
def Buf.write (grow : Growth) (b : Buf) (p : Bytes) : Buf :=
  ⟨if p.length ≤ b.cur.spare.length then b.old else b.mem, b.cur.write grow p⟩

/-- `(*bytes.Buffer).Bytes`. See hid/hid.go:119. -/
def Buf.bytes (b : Buf) : Ref := ⟨b.old.length, 0, b.cur.len, b.cur.cap⟩

/-- hid.go:91-119: the loop of `ReadFrame`, as `Hid.readFrameLoop`. -/
def readFrameLoop (grow : Growth) (defs : List Hid.ReportDef) :
    List (Except Err Hid.Report) → Buf → Out (List (Except Err Hid.Report) × Buf × Except Err Ref)
  | [], buf => .ret ([], buf, .error .eof)
  | .error e :: rs, buf => .ret (rs, buf, .error e)
  | .ok report :: rs, buf =>
    match Hid.find defs report.id.toNat with
    | none => .ret (rs, buf, .error Err.noReport)
    | some reportDef =>
      if reportDef.maxPayload < 0 then .panic
      else
        let reportData := report.data.take (min report.data.length reportDef.maxPayload.toNat)
        if report.linkControl = Hid.linkControlDone then
          let buf := buf.reset.write grow reportData
          .ret (rs, buf, .ok buf.bytes)
        else if report.linkControl = Hid.linkControlMoreToFollow then
          readFrameLoop grow defs rs (buf.reset.write grow reportData)
        else if report.linkControl = Hid.linkControlContinue ||| Hid.linkControlMoreToFollow then
          readFrameLoop grow defs rs (buf.write grow reportData)
        else if report.linkControl = Hid.linkControlContinue then
          let buf := buf.write grow reportData
          .ret (rs, buf, .ok buf.bytes)
        else readFrameLoop grow defs rs buf

/-- hid.go:88-120 `ReadFrame`. -/
def readFrame (grow : Growth) (defs : List Hid.ReportDef) (rs : List (Except Err Hid.Report)) (buf : Buf) :
    Out (List (Except Err Hid.Report) × Buf × Except Err Ref) :=
  readFrameLoop grow defs rs buf.reset

/-! ### Packets -/

/-- packet.go:47-62 `parsePacket`. -/
def parsePacket (m : Mem) (data : Ref) : Out (Nat × Except Err Ref) :=
  match parseHeader (content m data) with
  | .error e => .ret (0, .error e)
  | .ok (payOff, payLen) =>
    let pktLen := payOff + payLen + 1
    data.upTo pktLen >>= fun pkt =>
    if pkt.len < pktLen then .ret (pktLen, .error .unexpectedEOF)
    else if checksum (content m pkt) ≠ 0x00 then .ret (pktLen, .error Err.checksum)
    else pkt.range payOff (payOff + payLen) >>= fun payload => .ret (pktLen, .ok payload)

/-- packet.go:64-76 `(*PacketReader).ReadPacket`. -/
def readPacket (m : Mem) (frame : Ref) : Out (Ref × Except Err Ref) :=
  match indexStart (content m frame) with
  | none => .ret (frame, .error .eof)
  | some next =>
    frame.fromLo (next + 1) >>= fun frame1 =>
    parsePacket m frame1 >>= fun r =>
    match r.2 with
    | .error e => .ret (frame1, .error e)
    | .ok payload => frame1.fromLo r.1 >>= fun frame2 => .ret (frame2, .ok payload)

/-! ### Commands -/

/-- A token: with bytes of its own, or an `*FIDEAProtocolToken` (general.go:550-553). -/
inductive Token where
  | owned (t : FIDToken)
  | eaProtocol (index : UInt8) (str : Ref)
deriving DecidableEq, Repr

/-- general.go:592-595 `FIDTokenValue`. -/
structure TokenValue where
  id : TokenID
  token : Token
deriving DecidableEq, Repr

/-- A payload: with bytes of its own, an `UnknownPayload`, or a `*SetFIDTokenValues`. See cmd.go:17,32, lingo-general/general.go:675-677. -/
inductive Payload where
  | owned (p : Ipod.Payload)
  | unknown (r : Ref)
  | tokens (l : List TokenValue)

/-- cmd.go:29-34 `Command`. -/
structure Command where
  id : LingoCmdID
  trx : Option UInt16
  payload : Payload

/-- What a token shows while the arrays contain `m`. See lingo-general/general.go:550-559,592-595. -/
def Token.now (m : Mem) : Token → FIDToken
  | .owned t => t
  | .eaProtocol i s => .eaProtocol i (content m s)

/-- See lingo-general/general.go:592-595. -/
def TokenValue.now (m : Mem) (v : TokenValue) : FIDTokenValue := ⟨v.id, v.token.now m⟩

/-- What a payload shows while the arrays contain `m`. See cmd.go:32. -/
def Payload.now (m : Mem) : Payload → Ipod.Payload
  | .owned p => p
  | .unknown r => .unknown (content m r)
  | .tokens l => .ptr (.gen .SetFIDTokenValues) (l.map (·.now m), ())

/-- What a command shows while the arrays contain `m`. See cmd.go:28-33. -/
def Command.now (m : Mem) (c : Command) : Ipod.Command := ⟨c.id, c.trx, c.payload.now m⟩

/-- general.go:627-671, as `Ipod.unmarshalToken`; `ProtocolString` is `data[1:]` itself (557). -/
def unmarshalToken (m : Mem) (id : TokenID) (data : Ref) : Out (Except Err Token) :=
  if id.fidType = 0x00 ∧ id.fidSubtype = 0x04 then
    index (content m data) 0 >>= fun i =>
    data.fromLo 1 >>= fun s => .ret (.ok (.eaProtocol i s))
  else
    Ipod.unmarshalToken id (content m data) >>= fun t =>
    match t with
    | .error e => .ret (.error e)
    | .ok t => .ret (.ok (.owned t))

/-- general.go:621-673 `(*FIDTokenValue).UnmarshalBinary`. -/
def unmarshalTokenValue (m : Mem) (data : Ref) : Out (Except Err TokenValue) :=
  match binRead [.u8, .u8] (content m data) with
  | (.error e, _) => .ret (.error e)
  | (.ok (a, b, _), _) =>
    unmarshalToken m ⟨a, b⟩ (data.skip 2) >>= fun t =>
    match t with
    | .error e => .ret (.error e)
    | .ok t => .ret (.ok ⟨⟨a, b⟩, t⟩)

/-- general.go:701-712. -/
def unmarshalList (m : Mem) : Nat → Ref → Out (Except Err (List TokenValue))
  | 0, _ => .ret (.ok [])
  | n + 1, r =>
    match content m r with
    | [] => .ret (.error .eof)
    | len :: _ =>
      unmarshalTokenValue m ((r.skip 1).next len.toNat) >>= fun v =>
      match v with
      | .error e => .ret (.error e)
      | .ok v =>
        unmarshalList m n ((r.skip 1).skip len.toNat) >>= fun vs =>
        match vs with
        | .error e => .ret (.error e)
        | .ok vs => .ret (.ok (v :: vs))

/-- general.go:694-714 `(*SetFIDTokenValues).UnmarshalBinary`. -/
def unmarshalTokens (m : Mem) (data : Ref) : Out (Except Err (List TokenValue)) :=
  match content m data with
  | [] => .ret (.error .eof)
  | n :: _ => unmarshalList m n.toNat (data.skip 1)

/-- cmd.go:147-161, as `Ipod.decodePayload`. -/
def decodePayload (m : Mem) (t : TypeId) (r : Ref) : Out (Except Err Payload) :=
  if t = .gen .SetFIDTokenValues then
    unmarshalTokens m r >>= fun l =>
    match l with
    | .error e => .ret (.error e)
    | .ok l => .ret (.ok (.tokens l))
  else
    Ipod.decodePayload t (content m r) >>= fun v =>
    match v with
    | .error e => .ret (.error e)
    | .ok v => .ret (.ok (.owned (.ptr t v)))

/-- cmd.go:123-163 `UnmarshalCmd`. The `bytes.Buffer` over the packet (125) has read what is missing of the rest `r`. -/
def unmarshalCmd (m : Mem) (trxEnabled : Bool) (pkt : Ref) : Out (Bool × Command × Option Err) :=
  match unmarshalLingoCmdID (content m pkt) with
  | (.error e, _) => .ret (trxEnabled, ⟨0, none, .owned .nil⟩, some e)
  | (.ok id, r) =>
    let rest := pkt.skip ((content m pkt).length - r.length)
    let trxEnabled := handleCmdID trxEnabled id
    match registry.lookup TypeId.size id rest.len trxEnabled with
    | none => .ret (trxEnabled, ⟨id, none, .unknown rest⟩, some Err.unknownCmd)
    | some (t, false) =>
      decodePayload m t rest >>= fun p =>
      match p with
      | .error e => .ret (trxEnabled, ⟨id, none, .owned .nil⟩, some e)
      | .ok p => .ret (trxEnabled, ⟨id, none, p⟩, none)
    | some (t, true) =>
      match binRead [.u16] (content m rest) with
      | (.error e, _) => .ret (trxEnabled, ⟨id, none, .owned .nil⟩, some e)
      | (.ok (tr, _), _) =>
        decodePayload m t (rest.skip 2) >>= fun p =>
        match p with
        | .error e => .ret (trxEnabled, ⟨id, some tr, .owned .nil⟩, some e)
        | .ok p => .ret (trxEnabled, ⟨id, some tr, p⟩, none)

/-! ### The server loop -/

theorem upTo_len {r s : Ref} {n : Nat} (h : r.upTo n = .ret s) : s.len = n := by
  unfold Ref.upTo at h
  split at h <;> cases h
  rfl

theorem fromLo_len {r s : Ref} {n : Nat} (h : r.fromLo n = .ret s) : n ≤ r.len ∧ s.len = r.len - n := by
  unfold Ref.fromLo at h
  split at h
  · cases h; exact ⟨‹_›, rfl⟩
  · cases h

/-- Unless the frame is at its end, `ReadPacket` gets on. -/
theorem readPacket_shorter {m : Mem} {frame rest : Ref} {r : Except Err Ref} (h : readPacket m frame = .ret (rest, r)) :
    r = .error .eof ∨ rest.len < frame.len := by
  unfold readPacket at h
  split at h
  · cases h; exact .inl rfl
  · rename_i next _
    cases h1 : frame.fromLo (next + 1) with
    | panic => rw [h1] at h; cases h
    | ret frame1 =>
      have l1 := fromLo_len h1
      rw [h1] at h
      simp only [Out.bind_ret] at h
      cases h2 : parsePacket m frame1 with
      | panic => rw [h2] at h; cases h
      | ret x =>
        obtain ⟨n, p⟩ := x
        rw [h2] at h
        simp only [Out.bind_ret] at h
        cases p with
        | error e => cases h; right; omega
        | ok p =>
          dsimp only at h
          cases h3 : frame1.fromLo n with
          | panic => rw [h3] at h; cases h
          | ret frame2 =>
            have l3 := fromLo_len h3
            rw [h3] at h
            cases h
            right; omega

/-- main.go:346-360, as `Ipod.readCommands`. -/
def readCommands (m : Mem) (mode : Bool) (frame : Ref) : Out (Bool × List Command) :=
  match _h : readPacket m frame with
  | .panic => .panic
  | .ret (rest, .error e) => if _he : e = .eof then .ret (mode, []) else readCommands m mode rest
  | .ret (rest, .ok pkt) =>
    unmarshalCmd m mode pkt >>= fun x =>
    readCommands m x.1 rest >>= fun y => .ret (y.1, x.2.1 :: y.2)
termination_by frame.len
decreasing_by
  all_goals
    rcases readPacket_shorter _h with h | h
    · first | exact absurd (Except.error.inj h) _he | cases h
    · exact h

/-- The server at work: its state with the tokens as they were when they were last looked at, and the tokens
`devGeneral.tokens` (cmd/ipod/general.go:17) it holds. -/
structure Srv where
  srv : Ipod.Srv DevGeneral
  held : List TokenValue

/-- The state the handlers find while the arrays contain `m`. See cmd/ipod/main.go:332-396. -/
def Srv.now (m : Mem) (s : Srv) : Ipod.Srv DevGeneral :=
  { s.srv with ctx := { s.srv.ctx with dev := { s.srv.ctx.dev with tokens := s.held.map (·.now m) } } }

/-- What becomes of the tokens: `StartIDPS` drops them (lingo-general/handler.go:204, cmd/ipod/general.go:95),
`SetFIDTokenValues` appends (handler.go:209, general.go:99). -/
def hold (held : List TokenValue) (c : Command) : List TokenValue :=
  if c.id.lingoID = lingoGeneralID then
    match c.payload with
    | .tokens l => held ++ l
    | .owned (.ptr (.gen .StartIDPS) _) => []
    | _ => held
  else held

/-- main.go:345-380, as `Ipod.processFrame`. The arrays stay as they are meanwhile. -/
def processFrame (clock : Clock) (m : Mem) (s : Srv) (frame : Ref) : Out (Srv × List Bytes) :=
  readCommands m s.srv.mode frame >>= fun x =>
  handleAll devGeneral clock (x.2.map (·.now m)) { (s.now m).ctx with out := [] } >>= fun c =>
  let y := sendAll x.1 c.out
  .ret (⟨⟨y.1, { c with out := [] }⟩, x.2.foldl hold s.held⟩, y.2)

/-- main.go:332-384 `processFrames` on a `hid.Decoder` over the reports `rs`; `n` bounds the number of `ReadFrame` calls.
Result: the buffer, the server and the frames written. -/
def processFrames (clock : Clock) (grow : Growth) (defs : List Hid.ReportDef) :
    Nat → List (Except Err Hid.Report) → Buf → Srv → Out (Buf × Srv × List Bytes)
  | 0, _, buf, s => .ret (buf, s, [])
  | n + 1, rs, buf, s =>
    readFrame grow defs rs buf >>= fun x =>
    match x.2.2 with
    | .error e => if e = .eof then .ret (x.2.1, s, []) else processFrames clock grow defs n x.1 x.2.1 s
    | .ok frame =>
      processFrame clock x.2.1.mem s frame >>= fun y =>
      processFrames clock grow defs n x.1 x.2.1 y.1 >>= fun z => .ret (z.1, z.2.1, y.2 ++ z.2.2)

/-- main.go:159-161 `serve`, as `Ipod.serve`. -/
def serve (clock : Clock) (grow : Growth) (defs : List Hid.ReportDef) (reads : List Hid.ReadRes) (s : Srv) :
    Out (Buf × Srv × List Bytes) :=
  processFrames clock grow defs reads.length (reads.map Hid.rawReadReport) ⟨[], ⟨[], []⟩⟩ s

end Ipod.Alias
