import Verif.Props.Handlers
import Verif.Spec.Replies

/-! Case analyses of the handlers for C53, C64 and C65. -/

namespace Props
open Go Spec Ipod

/-- The requests `handleGeneral` answers. -/
def genHandled : List TypeId :=
  ([.RequestRemoteUIMode, .EnterRemoteUIMode, .ExitRemoteUIMode, .RequestiPodName, .RequestiPodSoftwareVersion,
    .RequestiPodSerialNum, .RequestiPodModelNum, .RequestLingoProtocolVersion, .RequestTransportMaxPayloadSize,
    .IdentifyDeviceLingoes, .RetDevAuthenticationInfo, .RetDevAuthenticationSignature, .GetiPodAuthenticationInfo,
    .GetiPodAuthenticationSignature, .GetiPodOptions, .GetiPodPreferences, .SetiPodPreferences, .GetUIMode,
    .SetUIMode, .StartIDPS, .SetFIDTokenValues, .EndIDPS, .SetEventNotification, .GetiPodOptionsForLingo,
    .GetEventNotification, .GetSupportedEventNotification, .CancelCommand, .RequestApplicationLaunch,
    .GetNowPlayingFocusApp] : List GenT).map TypeId.gen

/-- The requests `handleDispRemote` answers. -/
def dispHandled : List TypeId :=
  ([.GetCurrentEQProfileIndex, .SetCurrentEQProfileIndex, .GetNumEQProfiles, .GetIndexedEQProfileName,
    .SetRemoteEventNotification, .GetRemoteEventStatus, .GetiPodStateInfo, .SetiPodStateInfo, .GetPlayStatus,
    .SetCurrentPlayingTrack, .GetIndexedPlayingTrackInfo, .GetNumPlayingTracks, .GetArtworkFormats,
    .GetPowerBatteryState, .GetSoundCheckState, .SetSoundCheckState, .GetTrackArtworkTimes] : List DispT).map TypeId.disp

/-- The requests `handleExtRemote` answers. -/
def extHandled : List TypeId :=
  ([.GetCurrentPlayingTrackChapterInfo, .SetCurrentPlayingTrackChapter, .GetCurrentPlayingTrackChapterPlayStatus,
    .GetCurrentPlayingTrackChapterName, .GetAudiobookSpeed, .SetAudiobookSpeed, .GetIndexedPlayingTrackInfo,
    .GetArtworkFormats, .GetTrackArtworkData, .ResetDBSelection, .SelectDBRecord, .GetNumberCategorizedDBRecords,
    .RetrieveCategorizedDatabaseRecords, .GetPlayStatus, .GetCurrentPlayingTrackIndex, .GetIndexedPlayingTrackTitle,
    .GetIndexedPlayingTrackArtistName, .GetIndexedPlayingTrackAlbumName, .SetPlayStatusChangeNotification,
    .SetPlayStatusChangeNotificationShort, .PlayCurrentSelection, .PlayControl, .GetTrackArtworkTimes, .GetShuffle,
    .SetShuffle, .GetRepeat, .SetRepeat, .SetDisplayImage, .GetMonoDisplayImageLimits, .GetNumPlayingTracks,
    .GetColorDisplayImageLimits, .ResetDBSelectionHierarchy] : List ExtT).map TypeId.ext

/-- The requests `handleAudio` answers. -/
def audHandled : List TypeId :=
  ([.RetAccSampleRateCaps] : List AudT).map TypeId.aud

theorem not_handled (l : UInt8) (hs : List TypeId)
    (htab : ∀ t ∈ TypeId.all, t.lingo = l → [] ∉ answers l.toNat t.cmd.toNat → t ∈ hs) (t : TypeId) (hl : t.lingo = l)
    (h : [] ∉ answers l.toNat t.cmd.toNat) : t ∈ hs := htab t t.mem_all hl h

theorem idPair_id (t : TypeId) : idPair t.id = (t.lingo.toNat, t.cmd.toNat) := by
  rw [idPair, lingoID_id, cmdID_id]

theorem general_answers {σ : Type} {D : Device σ} {cmd : Command} {c c' : Ctx σ} {new : List Command}
    (h : handleGeneral D cmd c = .ret c') (ho : c'.out = c.out ++ new) {t : TypeId} {v : t.Val}
    (hp : cmd.payload = .ptr t v) (hid : cmd.id = t.id) (hl : t.lingo = 0x00)
    (hn : t ≠ .gen .RetDevAuthenticationInfo) :
    new.map (fun x => idPair x.id) ∈ answers 0 (idPair cmd.id).2 := by
  unfold handleGeneral at h
  split at h
  all_goals rename_i hq
  all_goals rw [hq] at hp
  all_goals try simp only [Ctx.ack, Ctx.ackSuccess, Ctx.ackPending, respond_eq, send_eq, out_ret_bind] at h
  all_goals repeat' split at h
  all_goals cases h
  all_goals first
    | (have := out0 ho; subst this)
    | (have := out1 ho; subst this)
    | (have := out2 ho; subst this)
  all_goals first
    | (cases hp; done)
    | (cases hp; exact absurd rfl hn)
    | (cases hp
       simp only [List.map_cons, List.map_nil]
       rw [hid]
       decide +kernel)
    | skip
  cases hp
  apply Classical.byContradiction
  intro hb
  rw [hid, idPair_id] at hb
  have hm := not_handled 0x00 genHandled (by decide +kernel) t hl hb
  simp only [genHandled, List.map_cons, List.map_nil, List.mem_cons, List.not_mem_nil, or_false] at hm
  clear hb ho hid hl
  rcases hm with rfl | rfl | rfl | rfl | rfl | rfl | rfl | rfl | rfl | rfl | rfl | rfl | rfl | rfl | rfl | rfl |
    rfl | rfl | rfl | rfl | rfl | rfl | rfl | rfl | rfl | rfl | rfl | rfl | rfl
  all_goals solve_by_elim [HEq.refl]

theorem disp_answers {σ : Type} {clock : Clock} {cmd : Command} {c c' : Ctx σ} {new : List Command}
    (h : handleDispRemote clock cmd c = .ret c') (ho : c'.out = c.out ++ new) {t : TypeId} {v : t.Val}
    (hp : cmd.payload = .ptr t v) (hid : cmd.id = t.id) (hl : t.lingo = 0x03) :
    new.map (fun x => idPair x.id) ∈ answers 3 (idPair cmd.id).2 := by
  unfold handleDispRemote at h
  split at h
  all_goals rename_i hq
  all_goals rw [hq] at hp
  all_goals try simp only [Ctx.dispAck, respond_eq] at h
  all_goals repeat' split at h
  all_goals cases h
  all_goals first
    | (have := out0 ho; subst this)
    | (have := out1 ho; subst this)
    | (have := out2 ho; subst this)
  all_goals first
    | (cases hp; done)
    | (cases hp
       simp only [List.map_cons, List.map_nil]
       rw [hid]
       decide +kernel)
    | skip
  cases hp
  apply Classical.byContradiction
  intro hb
  rw [hid, idPair_id] at hb
  have hm := not_handled 0x03 dispHandled (by decide +kernel) t hl hb
  simp only [dispHandled, List.map_cons, List.map_nil, List.mem_cons, List.not_mem_nil, or_false] at hm
  clear hb ho hid hl
  rcases hm with rfl | rfl | rfl | rfl | rfl | rfl | rfl | rfl | rfl | rfl | rfl | rfl | rfl | rfl | rfl | rfl | rfl
  all_goals solve_by_elim [HEq.refl]

theorem ext_answers {σ : Type} {cmd : Command} {c c' : Ctx σ} {new : List Command}
    (h : handleExtRemote cmd c = .ret c') (ho : c'.out = c.out ++ new) {t : TypeId} {v : t.Val}
    (hp : cmd.payload = .ptr t v) (hid : cmd.id = t.id) (hl : t.lingo = 0x04) :
    new.map (fun x => idPair x.id) ∈ answers 4 (idPair cmd.id).2 := by
  unfold handleExtRemote at h
  split at h
  all_goals rename_i hq
  all_goals rw [hq] at hp
  all_goals try simp only [Ctx.extAck, Ctx.extFail, respond_eq] at h
  all_goals repeat' split at h
  all_goals cases h
  all_goals first
    | (have := out0 ho; subst this)
    | (have := out1 ho; subst this)
    | (have := out2 ho; subst this)
  all_goals first
    | (cases hp; done)
    | (cases hp
       simp only [List.map_cons, List.map_nil]
       rw [hid]
       decide +kernel)
    | skip
  cases hp
  apply Classical.byContradiction
  intro hb
  rw [hid, idPair_id] at hb
  have hm := not_handled 0x04 extHandled (by decide +kernel) t hl hb
  simp only [extHandled, List.map_cons, List.map_nil, List.mem_cons, List.not_mem_nil, or_false] at hm
  clear hb ho hid hl
  rcases hm with rfl | rfl | rfl | rfl | rfl | rfl | rfl | rfl | rfl | rfl | rfl | rfl | rfl | rfl | rfl | rfl |
    rfl | rfl | rfl | rfl | rfl | rfl | rfl | rfl | rfl | rfl | rfl | rfl | rfl | rfl | rfl | rfl
  all_goals solve_by_elim [HEq.refl]

theorem audio_answers {σ : Type} {cmd : Command} {c c' : Ctx σ} {new : List Command}
    (h : handleAudio cmd c = .ret c') (ho : c'.out = c.out ++ new) {t : TypeId} {v : t.Val}
    (hp : cmd.payload = .ptr t v) (hid : cmd.id = t.id) (hl : t.lingo = 0x0A) :
    new.map (fun x => idPair x.id) ∈ answers 10 (idPair cmd.id).2 := by
  unfold handleAudio at h
  split at h
  all_goals rename_i hq
  all_goals rw [hq] at hp
  all_goals try simp only [respond_eq] at h
  all_goals repeat' split at h
  all_goals cases h
  all_goals first
    | (have := out0 ho; subst this)
    | (have := out1 ho; subst this)
    | (have := out2 ho; subst this)
  all_goals first
    | (cases hp; done)
    | (cases hp
       simp only [List.map_cons, List.map_nil]
       rw [hid]
       decide +kernel)
    | skip
  cases hp
  apply Classical.byContradiction
  intro hb
  rw [hid, idPair_id] at hb
  have hm := not_handled 0x0A audHandled (by decide +kernel) t hl hb
  simp only [audHandled, List.map_cons, List.map_nil, List.mem_cons, List.not_mem_nil, or_false] at hm
  clear hb ho hid hl
  rcases hm with rfl
  all_goals solve_by_elim [HEq.refl]

/-- An emitted command has the right ACK status, and can be encoded unless the request is `Unsendable`. -/
structure ReplyOK (req x : Command) : Prop where
  status : ∀ s, AckStatus x.payload s → s = ackStatusOf req x
  sendable : ¬ Unsendable req → ∃ b, encodePayload x.payload = .ok b

/-- The ACK types. -/
def ackTypes : List TypeId := [.gen .ACK, .gen .ACKPending, .disp .ACK, .ext .ACK]

theorem ackStatus_type {t : TypeId} {v : t.Val} {s : UInt8} (h : AckStatus (.ptr t v) s) : t ∈ ackTypes := by
  cases h <;> decide

theorem replyOK_fixed {req : Command} {id : UInt32} {trx : Option UInt16} {t : TypeId} {v : t.Val}
    (hs : t.size.isSome = true) (hna : t ∉ ackTypes) : ReplyOK req ⟨id, trx, .ptr t v⟩ := by
  obtain ⟨n, hn⟩ := Option.isSome_iff_exists.1 hs
  exact ⟨fun _ h => absurd (ackStatus_type h) hna, fun _ => ⟨_, encodePayload_fixed hn v⟩⟩

theorem replyOK_own {req : Command} {id : UInt32} {trx : Option UInt16} {t : TypeId} {v : t.Val} {b : Bytes}
    (hna : t ∉ ackTypes) (he : encodePayload (.ptr t v) = .ok b) : ReplyOK req ⟨id, trx, .ptr t v⟩ :=
  ⟨fun _ h => absurd (ackStatus_type h) hna, fun _ => ⟨_, he⟩⟩

theorem replyOK_unsend {req : Command} {id : UInt32} {trx : Option UInt16} {t : TypeId} {v : t.Val}
    (hna : t ∉ ackTypes) (he : Unsendable req) : ReplyOK req ⟨id, trx, .ptr t v⟩ :=
  ⟨fun _ h => absurd (ackStatus_type h) hna, fun h => absurd he h⟩

theorem replyOK_genAck {req : Command} {id : UInt32} {trx : Option UInt16} {s n : UInt8}
    (h : s = ackStatusOf req ⟨id, trx, .ptr (.gen .ACK) (s, n, ())⟩) :
    ReplyOK req ⟨id, trx, .ptr (.gen .ACK) (s, n, ())⟩ := by
  refine ⟨fun s' h' => ?_, fun _ => ⟨_, encodePayload_fixed rfl _⟩⟩
  cases h'; exact h

theorem replyOK_dispAck {req : Command} {id : UInt32} {trx : Option UInt16} {s n : UInt8}
    (h : s = ackStatusOf req ⟨id, trx, .ptr (.disp .ACK) (s, n, ())⟩) :
    ReplyOK req ⟨id, trx, .ptr (.disp .ACK) (s, n, ())⟩ := by
  refine ⟨fun s' h' => ?_, fun _ => ⟨_, encodePayload_fixed rfl _⟩⟩
  cases h'; exact h

theorem replyOK_extAck {req : Command} {id : UInt32} {trx : Option UInt16} {s : UInt8} {n : UInt16}
    (h : s = ackStatusOf req ⟨id, trx, .ptr (.ext .ACK) (s, n, ())⟩) :
    ReplyOK req ⟨id, trx, .ptr (.ext .ACK) (s, n, ())⟩ := by
  refine ⟨fun s' h' => ?_, fun _ => ⟨_, encodePayload_fixed rfl _⟩⟩
  cases h'; exact h

theorem replyOK_pending {req : Command} {id : UInt32} {trx : Option UInt16} {s n : UInt8} {w : UInt32}
    (h : s = ackStatusOf req ⟨id, trx, .ptr (.gen .ACKPending) (s, n, w, ())⟩) :
    ReplyOK req ⟨id, trx, .ptr (.gen .ACKPending) (s, n, w, ())⟩ := by
  refine ⟨fun s' h' => ?_, fun _ => ⟨_, encodePayload_fixed rfl _⟩⟩
  cases h'; exact h

theorem status_unknown {req x : Command} {b : Bytes} (h : req.payload = .unknown b) : 0x05 = ackStatusOf req x := by
  rw [ackStatusOf, h]; rfl

theorem status_known {req : Command} {id : UInt32} {trx : Option UInt16} {t t' : TypeId} {v : t.Val} {v' : t'.Val}
    {s : UInt8} (h : req.payload = .ptr t v) (hid : req.id = t.id) (hp : isPending (.ptr t' v') = false)
    (hs : s = if (t.lingo.toNat, t.cmd.toNat) ∈ [(0x00, 0x64), (0x04, 0x10), (0x04, 0x3B)] then 0x02 else 0x00) :
    s = ackStatusOf req ⟨id, trx, .ptr t' v'⟩ := by
  rw [ackStatusOf, h, hid, idPair_id]
  simp only [isUnknown, hp, Bool.false_eq_true, if_false]
  exact hs

theorem status_pending {req : Command} {id : UInt32} {trx : Option UInt16} {t t' : TypeId} {v : t.Val} {v' : t'.Val}
    (h : req.payload = .ptr t v) (hp : isPending (.ptr t' v') = true) :
    0x06 = ackStatusOf req ⟨id, trx, .ptr t' v'⟩ := by
  rw [ackStatusOf, h]
  simp only [isUnknown, hp, Bool.false_eq_true, if_false, if_true]

/-- Acknowledgements of tokens encode unless some token is unknown. -/
theorem marshalAcks_known {ts : List FIDTokenValue} (h : ¬ ∃ t ∈ ts, UnknownToken t) :
    ∃ b, marshalAcks (ackFIDTokenValues ts) = .ok b := by
  suffices ∃ b, marshalList marshalAck (ackFIDTokenValues ts) = .ok b by
    obtain ⟨b, hb⟩ := this
    exact ⟨_, by rw [marshalAcks, hb]⟩
  induction ts with
  | nil => exact ⟨_, rfl⟩
  | cons t ts ih =>
    obtain ⟨b, hb⟩ := ih (fun ⟨x, hx, hu⟩ => h ⟨x, .tail _ hx, hu⟩)
    have ht : ¬ UnknownToken t := fun hu => h ⟨t, .head _, hu⟩
    obtain ⟨a, ha⟩ : ∃ a, marshalAck (ackFIDTokenValue t) = .ok a := by
      obtain ⟨id, tok⟩ := t
      cases tok <;> first | exact ⟨_, rfl⟩ | (exact absurd (.inl ⟨_, rfl⟩) ht) | (exact absurd (.inr rfl) ht)
    rw [ackFIDTokenValues] at hb
    refine ⟨[UInt8.ofNat a.length] ++ a ++ b, ?_⟩
    simp only [ackFIDTokenValues, List.map_cons, marshalList, ha, hb]


theorem marshalAcks_unknown {ts : List FIDTokenValue} (h : ∃ t ∈ ts, UnknownToken t) :
    ∃ e, marshalAcks (ackFIDTokenValues ts) = .error e := by
  suffices ∃ e, marshalList marshalAck (ackFIDTokenValues ts) = .error e by
    obtain ⟨e, he⟩ := this
    exact ⟨e, by rw [marshalAcks, he]⟩
  induction ts with
  | nil => obtain ⟨t, ht, _⟩ := h; cases ht
  | cons t ts ih =>
    by_cases ht : UnknownToken t
    · have : ∃ e, marshalAck (ackFIDTokenValue t) = .error e := by
        obtain ⟨id, tok⟩ := t
        rcases ht with ⟨b, hb⟩ | hb <;> (simp only at hb; subst hb; exact ⟨_, rfl⟩)
      obtain ⟨e, he⟩ := this
      exact ⟨e, by simp only [ackFIDTokenValues, List.map_cons, marshalList, he]⟩
    · obtain ⟨e, he⟩ := ih (by
        obtain ⟨x, hx, hu⟩ := h
        cases hx with
        | head => exact absurd hu ht
        | tail _ hx => exact ⟨x, hx, hu⟩)
      rw [ackFIDTokenValues] at he
      simp only [ackFIDTokenValues, List.map_cons, marshalList, he]
      cases marshalAck (ackFIDTokenValue t) with
      | error e' => exact ⟨e', rfl⟩
      | ok a => exact ⟨e, rfl⟩

theorem replyOK_tokens {req : Command} {id : UInt32} {trx : Option UInt16} {ts : List FIDTokenValue} {u : SVal []}
    (hq : req.payload = .ptr (.gen .SetFIDTokenValues) (ts, u)) :
    ReplyOK req ⟨id, trx, .ptr (.gen .RetFIDTokenValueACKs) (ackFIDTokenValues ts, ())⟩ :=
  ⟨fun _ h => absurd (ackStatus_type h) (by decide), fun h => marshalAcks_known fun hu => h (.tokens _ _ hq hu)⟩

theorem extTrackInfo_encodes (ty : UInt8) :
    ∃ b, encodePayload (.ptr (.ext .ReturnIndexedPlayingTrackInfo) (ty, extTrackInfo ty, ())) = .ok b := by
  unfold extTrackInfo
  split
  · exact ⟨_, rfl⟩
  split
  · exact ⟨_, rfl⟩
  split <;> exact ⟨_, rfl⟩

theorem general_replies {σ : Type} {D : Device σ} {cmd : Command} {c c' : Ctx σ} {new : List Command}
    (h : handleGeneral D cmd c = .ret c') (ho : c'.out = c.out ++ new)
    (hw : ∀ t v, cmd.payload = .ptr t v → cmd.id = t.id) : ∀ x ∈ new, ReplyOK cmd x := by
  unfold handleGeneral at h
  split at h
  all_goals rename_i hq
  all_goals try simp only [Ctx.ack, Ctx.ackSuccess, Ctx.ackPending, respond_eq, send_eq, out_ret_bind] at h
  all_goals repeat' split at h
  all_goals cases h
  all_goals first
    | (have := out0 ho; subst this)
    | (have := out1 ho; subst this)
    | (have := out2 ho; subst this)
  all_goals simp only [List.forall_mem_cons, List.not_mem_nil, false_imp_iff, implies_true, and_true]
  all_goals first
    | (have hid := hw _ _ hq)
    | skip
  all_goals first
    | exact replyOK_genAck (status_unknown hq)
    | exact replyOK_genAck (status_known hq hid rfl (by decide +kernel))
    | exact ⟨replyOK_pending (status_pending hq rfl), replyOK_genAck (status_known hq hid rfl (by decide +kernel))⟩
    | exact replyOK_fixed rfl (by decide)
    | exact ⟨replyOK_genAck (status_known hq hid rfl (by decide +kernel)), replyOK_fixed rfl (by decide)⟩
    | exact ⟨replyOK_fixed rfl (by decide), replyOK_fixed rfl (by decide)⟩
    | exact replyOK_unsend (by decide) (.authInfo _ hq)
    | exact replyOK_unsend (by decide) (.focusApp _ hq)
    | exact replyOK_own (by decide) rfl
    | exact replyOK_tokens hq

theorem disp_replies {σ : Type} {clock : Clock} {cmd : Command} {c c' : Ctx σ} {new : List Command}
    (h : handleDispRemote clock cmd c = .ret c') (ho : c'.out = c.out ++ new)
    (hw : ∀ t v, cmd.payload = .ptr t v → cmd.id = t.id) : ∀ x ∈ new, ReplyOK cmd x := by
  unfold handleDispRemote at h
  split at h
  all_goals rename_i hq
  all_goals try simp only [Ctx.dispAck, respond_eq] at h
  all_goals repeat' split at h
  all_goals cases h
  all_goals first
    | (have := out0 ho; subst this)
    | (have := out1 ho; subst this)
    | (have := out2 ho; subst this)
  all_goals simp only [List.forall_mem_cons, List.not_mem_nil, false_imp_iff, implies_true, and_true]
  all_goals first
    | (have hid := hw _ _ hq)
    | skip
  all_goals first
    | exact replyOK_dispAck (status_known hq hid rfl (by decide +kernel))
    | exact replyOK_fixed rfl (by decide)
    | exact replyOK_unsend (by decide) (.eqName _ hq)
    | exact replyOK_unsend (by decide) (.artworkFormats _ hq)
    | exact replyOK_unsend (by decide) (.artworkTimes _ hq)
    | exact replyOK_own (by decide) rfl

theorem ext_replies {σ : Type} {cmd : Command} {c c' : Ctx σ} {new : List Command}
    (h : handleExtRemote cmd c = .ret c') (ho : c'.out = c.out ++ new)
    (hw : ∀ t v, cmd.payload = .ptr t v → cmd.id = t.id) : ∀ x ∈ new, ReplyOK cmd x := by
  unfold handleExtRemote at h
  split at h
  all_goals rename_i hq
  all_goals try simp only [Ctx.extAck, Ctx.extFail, respond_eq] at h
  all_goals repeat' split at h
  all_goals cases h
  all_goals first
    | (have := out0 ho; subst this)
    | (have := out1 ho; subst this)
    | (have := out2 ho; subst this)
  all_goals simp only [List.forall_mem_cons, List.not_mem_nil, false_imp_iff, implies_true, and_true]
  all_goals first
    | (have hid := hw _ _ hq)
    | skip
  all_goals first
    | exact replyOK_extAck (status_known hq hid rfl (by decide +kernel))
    | exact replyOK_fixed rfl (by decide)
    | exact replyOK_unsend (by decide) (.chapterName _ hq)
    | exact replyOK_own (by decide) rfl
    | (obtain ⟨b, hb⟩ := extTrackInfo_encodes _; exact replyOK_own (by decide) hb)

theorem audio_replies {σ : Type} {cmd : Command} {c c' : Ctx σ} {new : List Command}
    (h : handleAudio cmd c = .ret c') (ho : c'.out = c.out ++ new) : ∀ x ∈ new, ReplyOK cmd x := by
  unfold handleAudio at h
  split at h
  all_goals rename_i hq
  all_goals try simp only [respond_eq] at h
  all_goals repeat' split at h
  all_goals cases h
  all_goals first
    | (have := out0 ho; subst this)
    | (have := out1 ho; subst this)
    | (have := out2 ho; subst this)
  all_goals simp only [List.forall_mem_cons, List.not_mem_nil, false_imp_iff, implies_true, and_true]
  exact replyOK_fixed rfl (by decide)

end Props
