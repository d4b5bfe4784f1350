import Verif.Spec.Afresh
import Verif.Lemmas.Server

namespace Ipod
open Go Spec

/-- The states of the handlers that cannot be told apart. -/
structure CtxTwins {σ : Type} (R : σ → σ → Prop) (clock clock' : Clock) (c c' : Ctx σ) : Prop where
  dev : R c.dev c'.dev
  counter : c.counter = c'.counter
  out : c.out = c'.out
  time : SameTime clock clock' c.ticks c'.ticks

/-- Both results are there and cannot be told apart. -/
def BothTwins {σ : Type} (R : σ → σ → Prop) (clock clock' : Clock) (x x' : Out (Ctx σ)) : Prop :=
  ∃ c c', x = .ret c ∧ x' = .ret c' ∧ CtxTwins R clock clock' c c'

theorem both_ret {σ : Type} {R : σ → σ → Prop} {clock clock' : Clock} {c c' : Ctx σ} (h : CtxTwins R clock clock' c c') :
    BothTwins R clock clock' (.ret c) (.ret c') := ⟨c, c', rfl, rfl, h⟩

theorem both_respond {σ : Type} {R : σ → σ → Prop} {clock clock' : Clock} {c c' : Ctx σ} (h : CtxTwins R clock clock' c c')
    (req : Command) (t : TypeId) (v : t.Val) : BothTwins R clock clock' (c.respond req t v) (c'.respond req t v) := by
  rw [respond_eq, respond_eq]
  exact both_ret ⟨h.dev, h.counter, by simp [h.out], h.time⟩

theorem both_send {σ : Type} {R : σ → σ → Prop} {clock clock' : Clock} {c c' : Ctx σ} (h : CtxTwins R clock clock' c c')
    (t : TypeId) (v : t.Val) : BothTwins R clock clock' (c.send t v) (c'.send t v) := by
  rw [send_eq, send_eq]
  exact both_ret ⟨h.dev, by simp [h.counter], by simp [h.out, h.counter], h.time⟩

theorem both_bind {σ : Type} {R : σ → σ → Prop} {clock clock' : Clock} {x x' : Out (Ctx σ)} {f f' : Ctx σ → Out (Ctx σ)}
    (h : BothTwins R clock clock' x x')
    (hf : ∀ c c', CtxTwins R clock clock' c c' → BothTwins R clock clock' (f c) (f' c')) :
    BothTwins R clock clock' (x >>= f) (x' >>= f') := by
  obtain ⟨c, c', rfl, rfl, h⟩ := h
  exact hf c c' h

theorem alike_tokens {σ : Type} {D : Device σ} {R : σ → σ → Prop} (hU : Unseen D R) (ts : List FIDTokenValue) {d e : σ}
    (h : R d e) : R (ts.foldl D.setToken d) (ts.foldl D.setToken e) := by
  induction ts generalizing d e with
  | nil => exact h
  | cons t ts ih => exact ih (hU.setToken h t)

theorem general_alike {σ : Type} {D : Device σ} {R : σ → σ → Prop} (hU : Unseen D R) {clock clock' : Clock} (req : Command)
    {c c' : Ctx σ} (h : CtxTwins R clock clock' c c') :
    BothTwins R clock clock' (handleGeneral D req c) (handleGeneral D req c') := by
  have hr := both_respond h
  have hd := fun {d e : σ} (hR : R d e) => (⟨hR, h.counter, h.out, h.time⟩ :
    CtxTwins R clock clock' { c with dev := d } { c' with dev := e })
  have e1 := hU.uiMode h.dev
  obtain ⟨id, trx, p⟩ := req
  cases p with
  | nil => exact both_ret h
  | unknown b => exact hr _ _ _
  | ptr t v =>
    cases t with
    | gen g =>
      cases g
      case RequestRemoteUIMode => simp only [handleGeneral, e1]; exact hr _ _ _
      case EnterRemoteUIMode =>
        simp only [handleGeneral, e1]
        split
        · exact hr _ _ _
        · exact both_bind (hr _ _ _) fun a b hab => by
            refine both_respond ?_ _ _ _
            exact ⟨hU.setUIMode hab.dev _, hab.counter, hab.out, hab.time⟩
      case ExitRemoteUIMode =>
        simp only [handleGeneral, e1]
        split
        · exact hr _ _ _
        · exact both_bind (hr _ _ _) fun a b hab => by
            refine both_respond ?_ _ _ _
            exact ⟨hU.setUIMode hab.dev _, hab.counter, hab.out, hab.time⟩
      case RequestiPodName => simp only [handleGeneral, hU.name h.dev]; exact hr _ _ _
      case RequestiPodSoftwareVersion => simp only [handleGeneral, hU.softwareVersion h.dev]; exact hr _ _ _
      case RequestiPodSerialNum => simp only [handleGeneral, hU.serialNum h.dev]; exact hr _ _ _
      case RequestLingoProtocolVersion => simp only [handleGeneral, hU.lingoProtocolVersion h.dev]; exact hr _ _ _
      case RequestTransportMaxPayloadSize => simp only [handleGeneral, hU.maxPayload h.dev]; exact hr _ _ _
      case IdentifyDeviceLingoes =>
        simp only [handleGeneral]
        refine both_bind (hr _ _ _) fun a b hab => ?_
        split
        · exact both_respond hab _ _ _
        · exact both_ret hab
      case RetDevAuthenticationInfo =>
        simp only [handleGeneral]
        split
        · split <;> split
          · refine both_respond ?_ _ _ _
            exact ⟨h.dev, h.counter, h.out, h.time⟩
          · refine both_respond ?_ _ _ _
            exact ⟨h.dev, h.counter, h.out, h.time⟩
          · refine both_bind (both_respond ?_ _ _ _) fun a b hab => both_respond ?_ _ _ _
            · exact ⟨h.dev, h.counter, h.out, h.time⟩
            · exact ⟨hU.accAuthCert hab.dev _ _, hab.counter, hab.out, hab.time⟩
          · refine both_bind (both_respond ?_ _ _ _) fun a b hab => both_respond ?_ _ _ _
            · exact ⟨h.dev, h.counter, h.out, h.time⟩
            · exact ⟨hU.accAuthCert hab.dev _ _, hab.counter, hab.out, hab.time⟩
        · exact hr _ _ _
      case GetiPodPreferences => simp only [handleGeneral, hU.prefSettingID h.dev]; exact hr _ _ _
      case SetiPodPreferences => exact both_respond (hd (hU.setPrefSettingID h.dev _ _ _)) _ _ _
      case GetUIMode => simp only [handleGeneral, e1]; exact hr _ _ _
      case StartIDPS =>
        exact both_respond (c := { c with counter := trxReset, dev := D.startIDPS c.dev })
          (c' := { c' with counter := trxReset, dev := D.startIDPS c'.dev }) ⟨hU.startIDPS h.dev, rfl, h.out, h.time⟩ _ _ _
      case SetFIDTokenValues => exact both_respond (hd (alike_tokens hU _ h.dev)) _ _ _
      case EndIDPS =>
        simp only [handleGeneral]
        have h' := hd (hU.endIDPS h.dev v.1)
        split
        · exact both_bind (both_respond h' _ _ _) fun a b hab => both_send hab _ _
        · split
          · exact both_respond h' _ _ _
          · split
            · exact both_respond h' _ _ _
            · exact both_ret h'
      case SetEventNotification => exact both_respond (hd (hU.setEventNotificationMask h.dev _)) _ _ _
      case GetiPodOptionsForLingo => simp only [handleGeneral, hU.lingoOptions h.dev]; exact hr _ _ _
      case GetEventNotification => simp only [handleGeneral, hU.eventNotificationMask h.dev]; exact hr _ _ _
      case GetSupportedEventNotification =>
        simp only [handleGeneral, hU.supportedEventNotificationMask h.dev]; exact hr _ _ _
      case CancelCommand => exact both_respond (hd (hU.cancelCommand h.dev _ _ _)) _ _ _
      all_goals first
        | exact both_ret h
        | exact hr _ _ _
    | ext g => exact both_ret h
    | disp g => exact both_ret h
    | aud g => exact both_ret h
    | sim g => exact both_ret h

theorem disp_alike {σ : Type} {R : σ → σ → Prop} {clock clock' : Clock} (req : Command)
    {c c' : Ctx σ} (h : CtxTwins R clock clock' c c') :
    BothTwins R clock clock' (handleDispRemote clock req c) (handleDispRemote clock' req c') := by
  have hr := both_respond h
  obtain ⟨id, trx, p⟩ := req
  cases p with
  | nil => exact both_ret h
  | unknown b => exact both_ret h
  | ptr t v =>
    cases t with
    | disp g =>
      cases g
      case GetiPodStateInfo =>
        have e := h.time 0
        simp only [Nat.add_zero] at e
        simp only [handleDispRemote, e]
        split
        · exact both_ret h
        · split
          · exact both_respond (c := { c with ticks := c.ticks + 1 }) (c' := { c' with ticks := c'.ticks + 1 })
              ⟨h.dev, h.counter, h.out, fun n => by
                have := h.time (1 + n)
                simpa [Nat.add_assoc] using this⟩ _ _ _
          · exact hr _ _ _
      case GetIndexedPlayingTrackInfo =>
        simp only [handleDispRemote]
        split
        · exact both_ret h
        · exact hr _ _ _
      all_goals first
        | exact both_ret h
        | exact hr _ _ _
    | _ => exact both_ret h

theorem ext_alike {σ : Type} {R : σ → σ → Prop} {clock clock' : Clock} (req : Command)
    {c c' : Ctx σ} (h : CtxTwins R clock clock' c c') :
    BothTwins R clock clock' (handleExtRemote req c) (handleExtRemote req c') := by
  have hr := both_respond h
  obtain ⟨id, trx, p⟩ := req
  cases p with
  | nil => exact both_ret h
  | unknown b => exact both_ret h
  | ptr t v =>
    cases t with
    | ext g =>
      cases g <;> first
        | exact both_ret h
        | exact hr _ _ _
    | _ => exact both_ret h

theorem audio_alike {σ : Type} {R : σ → σ → Prop} {clock clock' : Clock} (req : Command)
    {c c' : Ctx σ} (h : CtxTwins R clock clock' c c') :
    BothTwins R clock clock' (handleAudio req c) (handleAudio req c') := by
  have hr := both_respond h
  obtain ⟨id, trx, p⟩ := req
  cases p with
  | nil => exact both_ret h
  | unknown b => exact both_ret h
  | ptr t v =>
    cases t with
    | aud g =>
      cases g <;> first
        | exact both_ret h
        | exact hr _ _ _
    | _ => exact both_ret h

theorem handlePacket_alike {σ : Type} {D : Device σ} {R : σ → σ → Prop} (hU : Unseen D R) {clock clock' : Clock}
    (cmd : Command) {c c' : Ctx σ} (h : CtxTwins R clock clock' c c') :
    BothTwins R clock clock' (handlePacket D clock cmd c) (handlePacket D clock' cmd c') := by
  unfold handlePacket
  split
  · refine both_bind ?_ fun a b hab => general_alike hU cmd hab
    split
    · exact both_send h _ _
    · exact both_ret h
  split
  · exact both_ret h
  split
  · exact disp_alike cmd h
  split
  · exact ext_alike cmd h
  split
  · exact audio_alike cmd h
  · exact both_ret h

theorem handleAll_alike {σ : Type} {D : Device σ} {R : σ → σ → Prop} (hU : Unseen D R) {clock clock' : Clock}
    (cmds : List Command) {c c' : Ctx σ} (h : CtxTwins R clock clock' c c') :
    BothTwins R clock clock' (handleAll D clock cmds c) (handleAll D clock' cmds c') := by
  induction cmds generalizing c c' with
  | nil => exact both_ret h
  | cons cmd cmds ih => exact both_bind (handlePacket_alike hU cmd h) fun a b hab => ih hab

/-- One frame whose commands are read alike. -/
theorem processFrame_alike' {σ : Type} {D : Device σ} {R : σ → σ → Prop} {clock clock' : Clock}
    {s s' : Srv σ} {frame : Slice} (hm : readCommands s.mode frame = readCommands s'.mode frame)
    (hh : ∀ x, readCommands s.mode frame = .ret x →
      BothTwins R clock clock' (handleAll D clock x.2 { s.ctx with out := [] })
        (handleAll D clock' x.2 { s'.ctx with out := [] })) :
    SameCourse R clock clock' (processFrame D clock s frame) (processFrame D clock' s' frame) := by
  simp only [processFrame, ← hm]
  cases hc : readCommands s.mode frame with
  | panic => exact .inl ⟨rfl, rfl⟩
  | ret x =>
    obtain ⟨a, b, ha, hb, hab⟩ := hh x hc
    right
    simp only [Out.bind_ret, ha, hb, hab.out]
    exact ⟨_, _, _, rfl, rfl, ⟨rfl, hab.dev, hab.counter, hab.time⟩⟩

theorem processFrame_alike {σ : Type} {D : Device σ} {R : σ → σ → Prop} (hU : Unseen D R) {clock clock' : Clock}
    {s s' : Srv σ} (h : Twins R clock clock' s s') (frame : Slice) :
    SameCourse R clock clock' (processFrame D clock s frame) (processFrame D clock' s' frame) :=
  processFrame_alike' (by rw [h.mode]) fun x _ => handleAll_alike hU _ ⟨h.dev, h.counter, rfl, h.time⟩

theorem sameCourse_bind {σ : Type} {R : σ → σ → Prop} {clock clock' : Clock} {x x' : Out (Srv σ × List Bytes)}
    {f f' : Srv σ → Out (Srv σ × List Bytes)} (h : SameCourse R clock clock' x x')
    (hf : ∀ s s', Twins R clock clock' s s' → SameCourse R clock clock' (f s) (f' s')) :
    SameCourse R clock clock' (x >>= fun a => f a.1 >>= fun b => .ret (b.1, a.2 ++ b.2))
      (x' >>= fun a => f' a.1 >>= fun b => .ret (b.1, a.2 ++ b.2)) := by
  rcases h with ⟨rfl, rfl⟩ | ⟨s, s', w, rfl, rfl, h⟩
  · exact .inl ⟨rfl, rfl⟩
  · simp only [Out.bind_ret]
    rcases hf s s' h with ⟨e1, e2⟩ | ⟨t, t', w', e1, e2, h'⟩
    · rw [e1, e2]; exact .inl ⟨rfl, rfl⟩
    · rw [e1, e2]; exact .inr ⟨t, t', w ++ w', rfl, rfl, h'⟩

theorem processFrames_alike {σ : Type} {D : Device σ} {R : σ → σ → Prop} (hU : Unseen D R) {clock clock' : Clock}
    (reads : List (Except Err Slice)) {s s' : Srv σ} (h : Twins R clock clock' s s') :
    SameCourse R clock clock' (processFrames D clock reads s) (processFrames D clock' reads s') := by
  induction reads generalizing s s' with
  | nil => exact .inr ⟨s, s', [], rfl, rfl, h⟩
  | cons r reads ih =>
    cases r with
    | error e =>
      cases e
      case eof => exact .inr ⟨s, s', [], rfl, rfl, h⟩
      all_goals exact ih h
    | ok frame =>
      simp only [processFrames]
      exact sameCourse_bind (processFrame_alike hU h frame) fun a b hab => ih hab

end Ipod
