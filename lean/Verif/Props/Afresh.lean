import Verif.Lemmas.Afresh
import Verif.Props.Handshake

/-! # Property C91: what the answers depend on -/

namespace Props
open Go Spec Ipod Ipod.Hid

/-! ## C91 -/

/-- C91, any device. Servers that agree in mode, transaction counter, time and in what the device answers write the same frames
whatever they receive, and end the same way. Tokens and certificates received before make no difference. -/
theorem C91_depends {σ : Type} {D : Device σ} {R : σ → σ → Prop} (hU : Unseen D R) {clock clock' : Clock} {s s' : Srv σ}
    (h : Twins R clock clock' s s') (reads : List (Except Err Slice)) :
    SameCourse R clock clock' (processFrames D clock reads s) (processFrames D clock' reads s') :=
  processFrames_alike hU reads h

/-- C91, over reports. -/
theorem C91_depends_reports {σ : Type} {D : Device σ} {R : σ → σ → Prop} (hU : Unseen D R) {clock clock' : Clock}
    {s s' : Srv σ} (h : Twins R clock clock' s s') (grow : Growth) (defs : List ReportDef) (reads : List ReadRes) :
    SameCourse R clock clock' (serve D clock grow defs reads s) (serve D clock' grow defs reads s') := by
  simp only [serve]
  cases frameReads grow defs reads.length (reads.map rawReadReport) ⟨[], []⟩ with
  | panic => exact .inl ⟨rfl, rfl⟩
  | ret frames => exact processFrames_alike hU frames h

/-- Of the emulated iPod an accessory sees the UI mode, nothing else. -/
theorem C91_device : Unseen devGeneral (fun d e => d.uimode = e.uimode) where
  uiMode h := h
  name _ := rfl
  softwareVersion _ := rfl
  serialNum _ := rfl
  lingoProtocolVersion _ _ := rfl
  lingoOptions _ _ := rfl
  prefSettingID _ _ := rfl
  eventNotificationMask _ := rfl
  supportedEventNotificationMask _ := rfl
  maxPayload _ := rfl
  setUIMode _ _ := rfl
  setPrefSettingID h _ _ _ := h
  startIDPS h := h
  endIDPS h _ := h
  setToken h _ := h
  accAuthCert h _ _ := h
  setEventNotificationMask h _ := h
  cancelCommand h _ _ _ := h

/-- The first packet of the frame is a StartIDPS, whatever the mode. -/
theorem start_read {frame : Bytes} (h : BeginsWithStart frame) (spare : Bytes) :
    ∃ (trx : Option UInt16) (ps : List Bytes) (b : Bool), ∀ m, readCommands m ⟨frame, spare⟩ = (decodeAll true ps >>= fun y =>
      if b then .panic else .ret (y.1, ⟨TypeId.id (.gen .StartIDPS), trx, .ptr (.gen .StartIDPS) ()⟩ :: y.2)) := by
  obtain ⟨trx, w, rest, hw, rfl⟩ := h
  obtain ⟨ps, b, hs⟩ := scan_total spare rest
  refine ⟨trx, ps, b, fun m => ?_⟩
  have hsc : Scan spare (w ++ rest) (([0x00, 0x38] ++ transactionBytes trx) :: ps) b :=
    .packet (j := []) (by intro hx; cases hx) hw hs
  have a1 := decode_fix (t := .gen .StartIDPS) (n := 0) rfl (by simp) trx m (body := []) rfl (v := ()) rfl
  rw [show handleCmdID m (TypeId.gen .StartIDPS).id = true by cases m <;> decide +kernel] at a1
  have e : packetOf (TypeId.gen .StartIDPS).lingo (TypeId.gen .StartIDPS).cmd trx [] =
      [0x00, 0x38] ++ transactionBytes trx := by cases trx <;> rfl
  rw [e] at a1
  rw [readCommands_scan hsc]
  simp only [decodeAll, a1, Out.bind_ret]
  cases decodeAll true ps with
  | panic => rfl
  | ret y => cases b <;> rfl

/-- C91, any device (partial). An accessory that begins with StartIDPS is served alike whatever the server's mode, transaction
counter, tokens and certificate were, if the devices answer alike after StartIDPS. Missing: the device of the code keeps
its UI mode (`C91_fails`). -/
theorem C91_afresh_partial {σ : Type} {D : Device σ} {R : σ → σ → Prop} (hU : Unseen D R) {clock clock' : Clock} {s s' : Srv σ}
    (hd : R (D.startIDPS s.ctx.dev) (D.startIDPS s'.ctx.dev)) (ht : SameTime clock clock' s.ctx.ticks s'.ctx.ticks)
    {frame : Bytes} (h : BeginsWithStart frame) (spare : Bytes) (reads : List (Except Err Slice)) :
    SameCourse R clock clock' (processFrames D clock (.ok ⟨frame, spare⟩ :: reads) s)
      (processFrames D clock' (.ok ⟨frame, spare⟩ :: reads) s') := by
  simp only [processFrames]
  obtain ⟨trx, ps, b, hr⟩ := start_read h spare
  refine sameCourse_bind (processFrame_alike' (by rw [hr, hr]) ?_) fun a b hab => processFrames_alike hU reads hab
  intro x hx
  rw [hr] at hx
  cases hy : decodeAll true ps with
  | panic => rw [hy] at hx; cases hx
  | ret y =>
    rw [hy, Out.bind_ret] at hx
    cases b with
    | true => cases hx
    | false =>
      cases hx
      simp only [handleAll]
      refine both_bind ?_ fun c c' hc => handleAll_alike hU y.2 hc
      have hl : LingoCmdID.lingoID (TypeId.id (.gen .StartIDPS)) = 0x00 := lingoID_id (.gen .StartIDPS)
      rw [handlePacket_general D clock ⟨TypeId.id (.gen .StartIDPS), trx, .ptr (.gen .StartIDPS) ()⟩ _ hl,
        handlePacket_general D clock' ⟨TypeId.id (.gen .StartIDPS), trx, .ptr (.gen .StartIDPS) ()⟩ _ hl]
      exact both_respond (c := { s.ctx with out := [], counter := trxReset, dev := D.startIDPS s.ctx.dev })
        (c' := { s'.ctx with out := [], counter := trxReset, dev := D.startIDPS s'.ctx.dev })
        ⟨hd, rfl, rfl, ht⟩ _ _ _

/-- GetUIMode, transaction 2. -/
def askUIMode : Bytes := [0x55, 0x04, 0x00, 0x35, 0x00, 0x02, 0xC5]

theorem startIDPSFrame_begins (rest : Bytes) : BeginsWithStart (startIDPSFrame ++ rest) :=
  ⟨some 1, startIDPSFrame, rest, ⟨[0x04], 0xC3, .inl ⟨0x04, by decide, by decide, rfl⟩, rfl, by decide⟩, rfl⟩

theorem sameCourse_written {R : DevGeneral → DevGeneral → Prop} {clock clock' : Clock} {x x' : Out (Srv DevGeneral × List Bytes)}
    (h : SameCourse R clock clock' x x') : written x = written x' := by
  rcases h with ⟨rfl, rfl⟩ | ⟨s, s', w, rfl, rfl, -⟩ <;> rfl

/-- StartIDPS and GetUIMode: what is written tells the UI mode. -/
theorem start_tells (u : UInt8) :
    written (processFrames devGeneral (fun _ => ⟨2024, 1, 2, 3, 4⟩) [.ok ⟨startIDPSFrame ++ askUIMode, []⟩]
      (Srv.init { DevGeneral.zero with uimode := u })) =
      .ret [[0x55, 6, 0, 2, 0, 1, 0, 56, 191], [0x55, 5, 0, 0x36, 0, 2, u, 0 - (0x3D + u)]] := by
  have h : ∀ n : Fin 256, written (processFrames devGeneral (fun _ => ⟨2024, 1, 2, 3, 4⟩)
      [.ok ⟨startIDPSFrame ++ askUIMode, []⟩] (Srv.init { DevGeneral.zero with uimode := UInt8.ofNat n.1 })) =
      .ret [[0x55, 6, 0, 2, 0, 1, 0, 56, 191], [0x55, 5, 0, 0x36, 0, 2, UInt8.ofNat n.1, 0 - (0x3D + UInt8.ofNat n.1)]] := by
    decide +kernel
  simpa using h ⟨u.toNat, u.toNat_lt⟩

/-- C91, exactly. The emulated iPod serves an accessory that begins with StartIDPS like a freshly started one, whatever comes
and whatever the time, just when it is in standard UI mode. -/
theorem C91_afresh_iff (s : Srv DevGeneral) :
    (∀ (clock : Clock) (frame spare : Bytes) (reads : List (Except Err Slice)), BeginsWithStart frame →
      written (processFrames devGeneral clock (.ok ⟨frame, spare⟩ :: reads) s) =
        written (processFrames devGeneral (fun n => clock (s.ctx.ticks + n)) (.ok ⟨frame, spare⟩ :: reads)
          (Srv.init DevGeneral.zero))) ↔
    s.ctx.dev.uimode = 0 := by
  constructor
  · intro h
    have h1 := h (fun _ => ⟨2024, 1, 2, 3, 4⟩) (startIDPSFrame ++ askUIMode) [] [] (startIDPSFrame_begins _)
    have h2 := sameCourse_written (C91_afresh_partial C91_device (clock := fun _ => ⟨2024, 1, 2, 3, 4⟩)
      (clock' := fun _ => ⟨2024, 1, 2, 3, 4⟩) (s := s)
      (s' := Srv.init { DevGeneral.zero with uimode := s.ctx.dev.uimode }) rfl (fun _ => rfl)
      (startIDPSFrame_begins askUIMode) [] [])
    rw [h2, start_tells] at h1
    have h3 := h1.trans (start_tells 0)
    simp only [Out.ret.injEq, List.cons.injEq, and_true, true_and] at h3
    exact h3.1
  · intro h clock frame spare reads hf
    exact sameCourse_written (C91_afresh_partial C91_device (s' := Srv.init DevGeneral.zero) h (fun n => by simp [Srv.init]) hf spare reads)

/-- C91 fails: having entered remote UI mode, the iPod is still in it when the next accessory starts its identification, and
says so. -/
theorem C91_fails :
    writesOn [[0x55, 0x02, 0x00, 0x05, 0xF9], startIDPSFrame, askUIMode] =
      .ret [[0x55, 8, 0, 2, 6, 5, 0, 0, 1, 44, 190], [0x55, 4, 0, 2, 0, 5, 245],
        [0x55, 6, 0, 2, 0, 1, 0, 56, 191], [0x55, 5, 0, 0x36, 0, 2, 1, 194]] ∧
    writesOn [startIDPSFrame, askUIMode] =
      .ret [[0x55, 6, 0, 2, 0, 1, 0, 56, 191], [0x55, 5, 0, 0x36, 0, 2, 0, 195]] := by
  decide +kernel

/-- Hypotheses of `C91_afresh_partial`, met by servers that differ in everything else. -/
example : SameCourse (fun d e : DevGeneral => d.uimode = e.uimode) (fun _ => ⟨2024, 1, 2, 3, 4⟩) (fun _ => ⟨2024, 1, 2, 3, 4⟩)
    (processFrames devGeneral (fun _ => ⟨2024, 1, 2, 3, 4⟩) [.ok ⟨startIDPSFrame ++ askUIMode, []⟩]
      ⟨true, ⟨DevGeneral.zero, [1, 2, 3], 77, [], 5⟩⟩)
    (processFrames devGeneral (fun _ => ⟨2024, 1, 2, 3, 4⟩) [.ok ⟨startIDPSFrame ++ askUIMode, []⟩] (Srv.init DevGeneral.zero)) :=
  C91_afresh_partial C91_device (s := ⟨true, ⟨DevGeneral.zero, [1, 2, 3], 77, [], 5⟩⟩) (s' := Srv.init DevGeneral.zero) rfl
    (fun _ => rfl) (startIDPSFrame_begins askUIMode) [] []

/-- Hypotheses of `C91_depends`. -/
example : Twins (fun d e : DevGeneral => d.uimode = e.uimode) (fun _ => ⟨2024, 1, 2, 3, 4⟩) (fun _ => ⟨2024, 1, 2, 3, 4⟩)
    ⟨true, ⟨DevGeneral.zero, [1, 2, 3], 77, [], 5⟩⟩ ⟨true, ⟨{ DevGeneral.zero with tokens := [⟨⟨0, 3⟩, .ipodPref 1 2 3⟩] }, [], 77, [], 8⟩⟩ :=
  ⟨rfl, rfl, rfl, fun _ => rfl⟩

end Props
