import Verif.Spec.Together
import Verif.Lemmas.Server
import Verif.Lemmas.PacketWrite
import Verif.Props.Handlers

namespace Ipod
open Go Spec

/-- The same command, or the same request of the device under two numbers. -/
inductive CmdLike : Command → Command → Prop
  | same (x) : CmdLike x x
  | auth (t t') : CmdLike ⟨TypeId.id (.gen .GetDevAuthenticationInfo), some t, .ptr (.gen .GetDevAuthenticationInfo) ()⟩
      ⟨TypeId.id (.gen .GetDevAuthenticationInfo), some t', .ptr (.gen .GetDevAuthenticationInfo) ()⟩
  | rates (t t') : CmdLike ⟨TypeId.id (.aud .GetAccSampleRateCaps), some t, .ptr (.aud .GetAccSampleRateCaps) ()⟩
      ⟨TypeId.id (.aud .GetAccSampleRateCaps), some t', .ptr (.aud .GetAccSampleRateCaps) ()⟩

inductive OutLike : List Command → List Command → Prop
  | nil : OutLike [] []
  | cons {x y xs ys} : CmdLike x y → OutLike xs ys → OutLike (x :: xs) (y :: ys)

theorem OutLike.append {a b c d : List Command} (h : OutLike a b) (h' : OutLike c d) : OutLike (a ++ c) (b ++ d) := by
  induction h with
  | nil => exact h'
  | cons hx _ ih => exact .cons hx ih

/-- The states of the handlers that cannot be told apart. -/
structure CtxLike {σ : Type} (R : σ → σ → Prop) (clock clock' : Clock) (c c' : Ctx σ) : Prop where
  dev : R c.dev c'.dev
  out : OutLike c.out c'.out
  time : SameTime clock clock' c.ticks c'.ticks

/-- Both results are there and cannot be told apart. -/
def BothLike {σ : Type} (R : σ → σ → Prop) (clock clock' : Clock) (x x' : Out (Ctx σ)) : Prop :=
  ∃ c c', x = .ret c ∧ x' = .ret c' ∧ CtxLike R clock clock' c c'

theorem like_ret {σ : Type} {R : σ → σ → Prop} {clock clock' : Clock} {c c' : Ctx σ} (h : CtxLike R clock clock' c c') :
    BothLike R clock clock' (.ret c) (.ret c') := ⟨c, c', rfl, rfl, h⟩

theorem like_respond {σ : Type} {R : σ → σ → Prop} {clock clock' : Clock} {c c' : Ctx σ} (h : CtxLike R clock clock' c c')
    (req : Command) (t : TypeId) (v : t.Val) : BothLike R clock clock' (c.respond req t v) (c'.respond req t v) := by
  rw [respond_eq, respond_eq]
  exact like_ret ⟨h.dev, h.out.append (.cons (.same _) .nil), h.time⟩

theorem like_send {σ : Type} {R : σ → σ → Prop} {clock clock' : Clock} {c c' : Ctx σ} (h : CtxLike R clock clock' c c') :
    BothLike R clock clock' (c.send (.gen .GetDevAuthenticationInfo) ()) (c'.send (.gen .GetDevAuthenticationInfo) ()) ∧
    BothLike R clock clock' (c.send (.aud .GetAccSampleRateCaps) ()) (c'.send (.aud .GetAccSampleRateCaps) ()) := by
  rw [send_eq, send_eq, send_eq, send_eq]
  exact ⟨like_ret ⟨h.dev, h.out.append (.cons (.auth _ _) .nil), h.time⟩,
    like_ret ⟨h.dev, h.out.append (.cons (.rates _ _) .nil), h.time⟩⟩

theorem like_bind {σ : Type} {R : σ → σ → Prop} {clock clock' : Clock} {x x' : Out (Ctx σ)} {f f' : Ctx σ → Out (Ctx σ)}
    (h : BothLike R clock clock' x x')
    (hf : ∀ c c', CtxLike R clock clock' c c' → BothLike R clock clock' (f c) (f' c')) :
    BothLike R clock clock' (x >>= f) (x' >>= f') := by
  obtain ⟨c, c', rfl, rfl, h⟩ := h
  exact hf c c' h

theorem like_tokens {σ : Type} {D : Device σ} {R : σ → σ → Prop} (hU : Unseen D R) (ts : List FIDTokenValue) {d e : σ}
    (h : R d e) : R (ts.foldl D.setToken d) (ts.foldl D.setToken e) := by
  induction ts generalizing d e with
  | nil => exact h
  | cons t ts ih => exact ih (hU.setToken h t)

theorem general_like {σ : Type} {D : Device σ} {R : σ → σ → Prop} (hU : Unseen D R) {clock clock' : Clock} (req : Command)
    {c c' : Ctx σ} (h : CtxLike R clock clock' c c') :
    BothLike R clock clock' (handleGeneral D req c) (handleGeneral D req c') := by
  have hr := like_respond h
  have hd := fun {d e : σ} (hR : R d e) => (⟨hR, h.out, h.time⟩ :
    CtxLike R clock clock' { c with dev := d } { c' with dev := e })
  have e1 := hU.uiMode h.dev
  obtain ⟨id, trx, p⟩ := req
  cases p with
  | nil => exact like_ret h
  | unknown b => exact hr _ _ _
  | ptr t v =>
    cases t with
    | gen g =>
      cases g
      case RequestRemoteUIMode => simp only [handleGeneral, e1]; exact hr _ _ _
      case EnterRemoteUIMode =>
        simp only [handleGeneral, e1]
        split
        · exact hr _ _ _
        · exact like_bind (hr _ _ _) fun a b hab => by
            refine like_respond ?_ _ _ _
            exact ⟨hU.setUIMode hab.dev _, hab.out, hab.time⟩
      case ExitRemoteUIMode =>
        simp only [handleGeneral, e1]
        split
        · exact hr _ _ _
        · exact like_bind (hr _ _ _) fun a b hab => by
            refine like_respond ?_ _ _ _
            exact ⟨hU.setUIMode hab.dev _, hab.out, hab.time⟩
      case RequestiPodName => simp only [handleGeneral, hU.name h.dev]; exact hr _ _ _
      case RequestiPodSoftwareVersion => simp only [handleGeneral, hU.softwareVersion h.dev]; exact hr _ _ _
      case RequestiPodSerialNum => simp only [handleGeneral, hU.serialNum h.dev]; exact hr _ _ _
      case RequestLingoProtocolVersion => simp only [handleGeneral, hU.lingoProtocolVersion h.dev]; exact hr _ _ _
      case RequestTransportMaxPayloadSize => simp only [handleGeneral, hU.maxPayload h.dev]; exact hr _ _ _
      case IdentifyDeviceLingoes =>
        simp only [handleGeneral]
        refine like_bind (hr _ _ _) fun a b hab => ?_
        split
        · exact like_respond hab _ _ _
        · exact like_ret hab
      case RetDevAuthenticationInfo =>
        simp only [handleGeneral]
        split
        · split <;> split
          · refine like_respond ?_ _ _ _
            exact ⟨h.dev, h.out, h.time⟩
          · refine like_respond ?_ _ _ _
            exact ⟨h.dev, h.out, h.time⟩
          · refine like_bind (like_respond ?_ _ _ _) fun a b hab => like_respond ?_ _ _ _
            · exact ⟨h.dev, h.out, h.time⟩
            · exact ⟨hU.accAuthCert hab.dev _ _, hab.out, hab.time⟩
          · refine like_bind (like_respond ?_ _ _ _) fun a b hab => like_respond ?_ _ _ _
            · exact ⟨h.dev, h.out, h.time⟩
            · exact ⟨hU.accAuthCert hab.dev _ _, hab.out, hab.time⟩
        · exact hr _ _ _
      case GetiPodPreferences => simp only [handleGeneral, hU.prefSettingID h.dev]; exact hr _ _ _
      case SetiPodPreferences => exact like_respond (hd (hU.setPrefSettingID h.dev _ _ _)) _ _ _
      case GetUIMode => simp only [handleGeneral, e1]; exact hr _ _ _
      case StartIDPS =>
        exact like_respond (c := { c with counter := trxReset, dev := D.startIDPS c.dev })
          (c' := { c' with counter := trxReset, dev := D.startIDPS c'.dev }) ⟨hU.startIDPS h.dev, h.out, h.time⟩ _ _ _
      case SetFIDTokenValues => exact like_respond (hd (like_tokens hU _ h.dev)) _ _ _
      case EndIDPS =>
        simp only [handleGeneral]
        have h' := hd (hU.endIDPS h.dev v.1)
        split
        · exact like_bind (like_respond h' _ _ _) fun a b hab => (like_send hab).1
        · split
          · exact like_respond h' _ _ _
          · split
            · exact like_respond h' _ _ _
            · exact like_ret h'
      case SetEventNotification => exact like_respond (hd (hU.setEventNotificationMask h.dev _)) _ _ _
      case GetiPodOptionsForLingo => simp only [handleGeneral, hU.lingoOptions h.dev]; exact hr _ _ _
      case GetEventNotification => simp only [handleGeneral, hU.eventNotificationMask h.dev]; exact hr _ _ _
      case GetSupportedEventNotification =>
        simp only [handleGeneral, hU.supportedEventNotificationMask h.dev]; exact hr _ _ _
      case CancelCommand => exact like_respond (hd (hU.cancelCommand h.dev _ _ _)) _ _ _
      all_goals first
        | exact like_ret h
        | exact hr _ _ _
    | ext g => exact like_ret h
    | disp g => exact like_ret h
    | aud g => exact like_ret h
    | sim g => exact like_ret h

theorem disp_like {σ : Type} {R : σ → σ → Prop} {clock clock' : Clock} (req : Command)
    {c c' : Ctx σ} (h : CtxLike R clock clock' c c') :
    BothLike R clock clock' (handleDispRemote clock req c) (handleDispRemote clock' req c') := by
  have hr := like_respond h
  obtain ⟨id, trx, p⟩ := req
  cases p with
  | nil => exact like_ret h
  | unknown b => exact like_ret h
  | ptr t v =>
    cases t with
    | disp g =>
      cases g
      case GetiPodStateInfo =>
        have e := h.time 0
        simp only [Nat.add_zero] at e
        simp only [handleDispRemote, e]
        split
        · exact like_ret h
        · split
          · exact like_respond (c := { c with ticks := c.ticks + 1 }) (c' := { c' with ticks := c'.ticks + 1 })
              ⟨h.dev, h.out, fun n => by
                have := h.time (1 + n)
                simpa [Nat.add_assoc] using this⟩ _ _ _
          · exact hr _ _ _
      case GetIndexedPlayingTrackInfo =>
        simp only [handleDispRemote]
        split
        · exact like_ret h
        · exact hr _ _ _
      all_goals first
        | exact like_ret h
        | exact hr _ _ _
    | _ => exact like_ret h

theorem ext_like {σ : Type} {R : σ → σ → Prop} {clock clock' : Clock} (req : Command)
    {c c' : Ctx σ} (h : CtxLike R clock clock' c c') :
    BothLike R clock clock' (handleExtRemote req c) (handleExtRemote req c') := by
  have hr := like_respond h
  obtain ⟨id, trx, p⟩ := req
  cases p with
  | nil => exact like_ret h
  | unknown b => exact like_ret h
  | ptr t v =>
    cases t with
    | ext g =>
      cases g <;> first
        | exact like_ret h
        | exact hr _ _ _
    | _ => exact like_ret h

theorem audio_like {σ : Type} {R : σ → σ → Prop} {clock clock' : Clock} (req : Command)
    {c c' : Ctx σ} (h : CtxLike R clock clock' c c') :
    BothLike R clock clock' (handleAudio req c) (handleAudio req c') := by
  have hr := like_respond h
  obtain ⟨id, trx, p⟩ := req
  cases p with
  | nil => exact like_ret h
  | unknown b => exact like_ret h
  | ptr t v =>
    cases t with
    | aud g =>
      cases g <;> first
        | exact like_ret h
        | exact hr _ _ _
    | _ => exact like_ret h

theorem handlePacket_like {σ : Type} {D : Device σ} {R : σ → σ → Prop} (hU : Unseen D R) {clock clock' : Clock}
    (cmd : Command) {c c' : Ctx σ} (h : CtxLike R clock clock' c c') :
    BothLike R clock clock' (handlePacket D clock cmd c) (handlePacket D clock' cmd c') := by
  unfold handlePacket
  split
  · refine like_bind ?_ fun a b hab => general_like hU cmd hab
    split
    · exact (like_send h).2
    · exact like_ret h
  split
  · exact like_ret h
  split
  · exact disp_like cmd h
  split
  · exact ext_like cmd h
  split
  · exact audio_like cmd h
  · exact like_ret h


theorem marshal_request (t : UInt16) :
    (marshalCmd true ⟨TypeId.id (.gen .GetDevAuthenticationInfo), some t, .ptr (.gen .GetDevAuthenticationInfo) ()⟩).2 =
      .ok ([0x00, 0x14] ++ transactionBytes (some t)) ∧
    (marshalCmd true ⟨TypeId.id (.aud .GetAccSampleRateCaps), some t, .ptr (.aud .GetAccSampleRateCaps) ()⟩).2 =
      .ok ([0x0A, 0x02] ++ transactionBytes (some t)) := by
  rw [← Props.trxBytes_eq, marshalCmd_eq, marshalCmd_eq]
  have h1 : handleCmdID true (TypeId.id (.gen .GetDevAuthenticationInfo)) = true := by decide +kernel
  have h2 : handleCmdID true (TypeId.id (.aud .GetAccSampleRateCaps)) = true := by decide +kernel
  have h3 : encodePayload (.ptr (.gen .GetDevAuthenticationInfo) ()) = .ok [] := by decide +kernel
  have h4 : encodePayload (.ptr (.aud .GetAccSampleRateCaps) ()) = .ok [] := by decide +kernel
  have h5 : idBytes (LingoCmdID.lingoID (TypeId.id (.gen .GetDevAuthenticationInfo)))
    (LingoCmdID.cmdID (TypeId.id (.gen .GetDevAuthenticationInfo))) = [0x00, 0x14] := by decide +kernel
  have h6 : idBytes (LingoCmdID.lingoID (TypeId.id (.aud .GetAccSampleRateCaps)))
    (LingoCmdID.cmdID (TypeId.id (.aud .GetAccSampleRateCaps))) = [0x0A, 0x02] := by decide +kernel
  simp only [h1, h2, h3, h4, h5, h6, List.append_nil, sentTrx]
  exact ⟨rfl, rfl⟩

theorem marshal_like {x y : Command} (h : CmdLike x y) (m : Bool) :
    (marshalCmd m x).1 = (marshalCmd m y).1 ∧ SameButNumber (writePacket newPacketWriter (match (marshalCmd m x).2 with
      | .ok p => p
      | .error _ => [])).1 (writePacket newPacketWriter (match (marshalCmd m y).2 with
      | .ok p => p
      | .error _ => [])).1 := by
  have key : ∀ q : Bytes, q = [0x00, 0x14] ∨ q = [0x0A, 0x02] → ∀ t t' : UInt16,
      SameButNumber (writePacket newPacketWriter (q ++ transactionBytes (some t))).1
        (writePacket newPacketWriter (q ++ transactionBytes (some t'))).1 := by
    intro q hq t t'
    have h1 : ∀ t, (q ++ transactionBytes (some t)).length = 4 := by intro t; rcases hq with rfl | rfl <;> rfl
    obtain ⟨w, a1, a2⟩ := writePacket_isPacket (q ++ transactionBytes (some t)) (by rw [h1]; omega) (by rw [h1]; omega)
      (by rw [h1]; omega)
    obtain ⟨w', b1, b2⟩ := writePacket_isPacket (q ++ transactionBytes (some t')) (by rw [h1]; omega) (by rw [h1]; omega)
      (by rw [h1]; omega)
    rw [a2, b2]
    exact .inr ⟨q, hq, t, t', a1, b1⟩
  cases h with
  | same => exact ⟨rfl, .inl rfl⟩
  | auth t t' =>
    cases m with
    | false => exact ⟨rfl, .inl rfl⟩
    | true =>
      rw [(marshal_request t).1, (marshal_request t').1]
      exact ⟨rfl, key [0x00, 0x14] (.inl rfl) t t'⟩
  | rates t t' =>
    cases m with
    | false => exact ⟨rfl, .inl rfl⟩
    | true =>
      rw [(marshal_request t).2, (marshal_request t').2]
      exact ⟨rfl, key [0x0A, 0x02] (.inr rfl) t t'⟩

theorem sendAll_like {xs ys : List Command} (h : OutLike xs ys) (m : Bool) :
    (sendAll m xs).1 = (sendAll m ys).1 ∧ FramesAlike (sendAll m xs).2 (sendAll m ys).2 := by
  induction h generalizing m with
  | nil => exact ⟨rfl, .nil⟩
  | cons hx _ ih =>
    obtain ⟨e, hf⟩ := marshal_like hx m
    simp only [sendAll]
    rw [e]
    exact ⟨(ih _).1, .cons hf (ih _).2⟩

theorem framesAlike_append {a b c d : List Bytes} (h : FramesAlike a b) (h' : FramesAlike c d) :
    FramesAlike (a ++ c) (b ++ d) := by
  induction h with
  | nil => exact h'
  | cons hx _ ih => exact .cons hx ih

end Ipod
