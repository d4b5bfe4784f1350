import Verif.Spec.Device
import Verif.Props.Replies
import Verif.Props.Constants

/-! # Properties C72 and C73: the emulated iPod -/

namespace Props
open Go Spec Ipod

/-! ## C72 -/

/-- C72. In whatever state it is, the emulated iPod answers the questions about itself with these bytes, under the
transaction of the question. -/
theorem C72_identity {clock : Clock} (c : Ctx DevGeneral) (mode : Bool) (trx : Option UInt16)
    (hm : trx.isSome = true → mode = true) (k k' : UInt8) (body reply : Bytes) (h : IpodReply k body k' reply) :
    AnsweredBy devGeneral clock c mode (generalPacket k trx body) (generalPacket k' trx reply) := by
  apply C66_queries mode trx hm
  cases h with
  | name => 
    have e : devGeneral.name c.dev ++ [0x00] =
        [0x69, 0x70, 0x6F, 0x64, 0x2D, 0x67, 0x61, 0x64, 0x67, 0x65, 0x74, 0x00] := by
      simp only [devGeneral]; decide +kernel
    have := (.name : DeviceReply devGeneral c.dev _ _ _ _)
    rwa [e] at this
  | softwareVersion => exact (.softwareVersion : DeviceReply devGeneral c.dev _ _ _ _)
  | serial => 
    have e : devGeneral.serialNum c.dev ++ [0x00] = [0x61, 0x62, 0x63, 0x64, 0x31, 0x32, 0x33, 0x34, 0x00] := by
      simp only [devGeneral]; decide +kernel
    have := (.serial : DeviceReply devGeneral c.dev _ _ _ _)
    rwa [e] at this
  | versionGeneral => exact (.lingoVersion 0x00 : DeviceReply devGeneral c.dev _ _ _ _)
  | versionDisplayRemote => exact (.lingoVersion 0x03 : DeviceReply devGeneral c.dev _ _ _ _)
  | versionExtendedRemote => exact (.lingoVersion 0x04 : DeviceReply devGeneral c.dev _ _ _ _)
  | versionDigitalAudio => exact (.lingoVersion 0x0A : DeviceReply devGeneral c.dev _ _ _ _)
  | versionOther l hl =>
    have e : devGeneral.lingoProtocolVersion c.dev l = (1, 1) := by
      simp only [List.mem_cons, List.not_mem_nil, or_false, not_or] at hl
      simp only [devGeneral]
      rw [if_neg hl.1, if_neg hl.2.1, if_neg hl.2.2.1, if_neg hl.2.2.2]
    have := (.lingoVersion l : DeviceReply devGeneral c.dev _ _ _ _)
    rwa [e] at this
  | maxPayload => exact .maxPayload _ ⟨rfl, rfl⟩
  | preference cls => exact (.preference cls : DeviceReply devGeneral c.dev _ _ _ _)
  | optionsGeneral => exact .lingoOptions _ _ ⟨rfl, rfl⟩
  | optionsOther l hl =>
    refine .lingoOptions _ _ ⟨rfl, ?_⟩
    have e : devGeneral.lingoOptions c.dev l = 0 := by
      simp only [devGeneral]
      rw [if_neg hl]
    rw [e]; rfl
  | eventMask => exact .eventMask _ ⟨rfl, rfl⟩
  | supportedEventMask => exact .supportedEventMask _ ⟨rfl, rfl⟩

/-- Asked for the version of lingo 4 under transaction 7. -/
example (clock : Clock) (c : Ctx DevGeneral) :
    AnsweredBy devGeneral clock c true [0x00, 0x0F, 0x00, 0x07, 0x04] [0x00, 0x10, 0x00, 0x07, 0x04, 1, 12] :=
  C72_identity c true (some 7) (fun _ => rfl) _ _ _ _ .versionExtendedRemote

/-! ## C73 -/

/-- The answer actually given after a setting. -/
theorem setting_exchange {clock : Clock} (c : Ctx DevGeneral) (mode : Bool) (trx trx' : Option UInt16)
    (hm : trx.isSome = true → mode = true) (hm' : trx'.isSome = true → mode = true) {set get ret : UInt8 × Bytes}
    (h : SettingPair set get ret) :
    ∃ zero, (zero = ret.2 ↔ ZeroSetting set) ∧
      SetThenAsked devGeneral clock c mode (generalPacket set.1 trx set.2) (generalPacket 0x02 trx [0x00, set.1])
        (generalPacket get.1 trx' get.2) (generalPacket ret.1 trx' zero) := by
  cases h with
  | preference cls setting restore =>
    refine ⟨[cls, 0x00], ⟨?_, ?_⟩, ?_⟩
    · intro e
      cases e
      exact .preference cls restore
    · intro e
      cases e
      rfl
    · obtain ⟨q, h1, h2⟩ := C66_setters (D := devGeneral) (clock := clock) (c := c) mode trx _ _ _
        (.preference cls setting restore) (fun h => .inl (hm h))
      simp only [show ((0x2B : UInt8) == 0x38) = false from rfl, Bool.or_false] at h1 h2
      exact ⟨q, h1, fun c' new hh => ⟨(h2 c' new hh).2, C72_identity c' mode trx' hm' _ _ _ _ (.preference cls)⟩⟩
  | eventMask mask hl =>
    refine ⟨[0, 0, 0, 0, 0, 0, 0, 0], ⟨?_, ?_⟩, ?_⟩
    · intro e
      dsimp only at e
      subst e
      exact .eventMask
    · intro e
      cases e
      rfl
    · have hlt : beVal mask < 2 ^ 64 := by
        rw [beVal_eq]; have := beDec_lt mask; rw [hl] at this; exact this
      have hb : beVal mask = (UInt64.ofNat (beVal mask)).toNat := by
        rw [UInt64.toNat_ofNat']
        exact (Nat.mod_eq_of_lt hlt).symm
      obtain ⟨q, h1, h2⟩ := C66_setters (D := devGeneral) (clock := clock) (c := c) mode trx _ _ _
        (.eventMask (UInt64.ofNat (beVal mask)) mask ⟨hl, hb⟩) (fun h => .inl (hm h))
      simp only [show ((0x49 : UInt8) == 0x38) = false from rfl, Bool.or_false] at h1 h2
      exact ⟨q, h1, fun c' new hh => ⟨(h2 c' new hh).2, C72_identity c' mode trx' hm' _ _ _ _ .eventMask⟩⟩

/-- A packet has one answer. -/
theorem answeredBy_unique {σ : Type} {D : Device σ} {clock : Clock} {c : Ctx σ} {mode : Bool} {request r1 r2 : Bytes}
    (h1 : AnsweredBy D clock c mode request r1) (h2 : AnsweredBy D clock c mode request r2) : r1 = r2 := by
  obtain ⟨q1, a1, b1⟩ := h1
  obtain ⟨q2, a2, b2⟩ := h2
  rw [a1] at a2
  cases a2
  obtain ⟨c', new, hh⟩ := handles_total D clock q1 c
  obtain ⟨_, x, e1, e2⟩ := b1 c' new hh
  obtain ⟨_, y, f1, f2⟩ := b2 c' new hh
  rw [e1] at f1
  cases f1
  rw [e2] at f2
  cases f2
  rfl

/-- C73 (partial): preferences and the event notification mask are acknowledged with success, and are what the emulated
iPod then reports iff they were zero. Missing: the property itself, which is violated, see `C73_fails`. -/
theorem C73_settings_iff_partial {clock : Clock} (c : Ctx DevGeneral) (mode : Bool) (trx trx' : Option UInt16)
    (hm : trx.isSome = true → mode = true) (hm' : trx'.isSome = true → mode = true) (set get ret : UInt8 × Bytes)
    (h : SettingPair set get ret) :
    SetThenAsked devGeneral clock c mode (generalPacket set.1 trx set.2) (generalPacket 0x02 trx [0x00, set.1])
      (generalPacket get.1 trx' get.2) (generalPacket ret.1 trx' ret.2) ↔ ZeroSetting set := by
  obtain ⟨zero, hz, hs⟩ := setting_exchange (clock := clock) c mode trx trx' hm hm' h
  refine ⟨fun ht => hz.1 ?_, fun e => hz.2 e ▸ hs⟩
  obtain ⟨q1, a1, b1⟩ := hs
  obtain ⟨q2, a2, b2⟩ := ht
  rw [a1] at a2
  cases a2
  obtain ⟨c', new, hh⟩ := handles_total devGeneral clock q1 c
  have := answeredBy_unique (b1 c' new hh).2 (b2 c' new hh).2
  simpa [generalPacket] using this

/-- C73, negation: preference class 3 is set to 1, acknowledged with success, and reported as 0. -/
theorem C73_fails (clock : Clock) (c : Ctx DevGeneral) (mode : Bool) :
    SettingPair (0x2B, [0x03, 0x01, 0x00]) (0x29, [0x03]) (0x2A, [0x03, 0x01]) ∧
    SetThenAsked devGeneral clock c mode [0x00, 0x2B, 0x03, 0x01, 0x00] [0x00, 0x02, 0x00, 0x2B] [0x00, 0x29, 0x03]
      [0x00, 0x2A, 0x03, 0x00] ∧
    ¬ SetThenAsked devGeneral clock c mode [0x00, 0x2B, 0x03, 0x01, 0x00] [0x00, 0x02, 0x00, 0x2B] [0x00, 0x29, 0x03]
      [0x00, 0x2A, 0x03, 0x01] := by
  refine ⟨.preference 0x03 0x01 0x00, ?_, fun h => ?_⟩
  · obtain ⟨q, h1, h2⟩ := C66_setters (D := devGeneral) (clock := clock) (c := c) mode none _ _ _
      (.preference 0x03 0x01 0x00) (fun h => by cases h)
    simp only [show ((0x2B : UInt8) == 0x38) = false from rfl, Bool.or_false] at h1 h2
    exact ⟨q, h1, fun c' new hh => ⟨(h2 c' new hh).2,
      C72_identity c' mode none (fun h => by cases h) _ _ _ _ (.preference 0x03)⟩⟩
  · have := (C73_settings_iff_partial c mode none none (fun h => by cases h) (fun h => by cases h) _ _ _
      (.preference 0x03 0x01 0x00)).1 h
    cases this

/-- Zero settings are reported as set. -/
example : ZeroSetting (0x49, [0, 0, 0, 0, 0, 0, 0, 0]) := .eventMask

end Props
