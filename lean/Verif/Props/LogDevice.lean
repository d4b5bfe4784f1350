import Verif.Spec.LogDevice
import Verif.Props.LogServer
import Verif.Props.Handlers
import Verif.Props.Text
import Verif.Lemmas.Alias

/-! C84: what the emulated iPod itself logs. -/

namespace Props
open Go Spec Ipod Ipod.Log

theorem tokenTypeText_kind (t : FIDToken) : tokenTypeText t = ascii (kindName t) := by
  cases t <;> rfl

/-- C84. A token that was decoded is shown by the name belonging to its id. -/
theorem C84_names {id : TokenID} {body : Bytes} {t : FIDToken} (h : TokenReads id body t) : TokenName id (ascii (kindName t)) := by
  cases t <;> simp only [TokenReads] at h
  case micCaps => exact .inr (.inl ⟨h.1, rfl⟩)
  case raw => exact .inr (.inr ⟨h.1, rfl⟩)
  all_goals
    obtain ⟨rfl, _⟩ := h
    exact .inl ⟨_, by simp [tokenNames, kindName], rfl⟩

example : TokenName ⟨0x00, 0x03⟩ (ascii (kindName (.ipodPref 1 2 3))) :=
  C84_names (body := [1, 2, 3]) ⟨rfl, [], rfl⟩

theorem capsText_lines (mask : UInt64) : capsText mask accCaps = capLines mask.toNat := by
  have key : ∀ (b : UInt64) (k : Nat), b.toNat = 2 ^ k → ((mask &&& b) ≠ 0 ↔ mask.toNat / 2 ^ k % 2 = 1) := by
    intro b k hb
    have ht : mask.toNat.testBit k = decide (mask.toNat / 2 ^ k % 2 = 1) := Nat.testBit_eq_decide_div_mod_eq
    rw [ne_eq, ← UInt64.toNat_inj, UInt64.toNat_and, hb, ← decide_eq_true_iff (p := mask.toNat / 2 ^ k % 2 = 1), ← ht]
    constructor
    · intro h
      cases hk : mask.toNat.testBit k with
      | true => rfl
      | false =>
        refine absurd (Nat.eq_of_testBit_eq fun i => ?_) h
        by_cases hi : k = i
        · subst hi; simp [Nat.testBit_and, hk]
        · simp [Nat.testBit_and, hi]
    · intro hk h
      have : (mask.toNat &&& 2 ^ k).testBit k = true := by simp [Nat.testBit_and, hk]
      rw [h] at this
      simp at this
  have k0 := key 1 0 rfl
  have k1 := key 2 1 rfl
  have k2 := key 4 2 rfl
  have k4 := key 16 4 rfl
  have k9 := key 512 9 rfl
  have k11 := key 2048 11 rfl
  have step : ∀ (P Q : Prop) [Decidable P] [Decidable Q] (a b : Bytes) (l : List (Nat × String)) (x : Nat × String) (f : Nat × String → Bool)
      (g : Nat × String → Bytes), (P ↔ Q) → (f x = decide Q) → a = g x → b = ((l.filter f).map g).flatten →
      (if P then a else []) ++ b = (((x :: l).filter f).map g).flatten := by
    intro P Q _ _ a b l x f g h1 h2 h3 h4
    by_cases hP : P
    · rw [if_pos hP, List.filter_cons_of_pos (by rw [h2]; simpa using h1.1 hP), List.map_cons, List.flatten_cons, h3, h4]
    · rw [if_neg hP, List.filter_cons_of_neg (by rw [h2]; simpa using fun hq => hP (h1.2 hq)), h4, List.nil_append]
  have c0 : ascii "Capability: " ++ accCapBitString 1 ++ [0x0A] = ascii "Capability: " ++ ascii "AccCapAnalogLineOut" ++ [0x0A] := by decide +kernel
  have c1 : ascii "Capability: " ++ accCapBitString 2 ++ [0x0A] = ascii "Capability: " ++ ascii "AccCapAnalogLineIn" ++ [0x0A] := by decide +kernel
  unfold capLines accCaps accCapBits capsText
  refine step _ _ _ _ _ _ _ _ k0 rfl c0 ?_
  unfold capsText
  refine step _ _ _ _ _ _ _ _ k1 rfl c1 ?_
  unfold capsText
  refine step _ _ _ _ _ _ _ _ k2 rfl rfl ?_
  unfold capsText
  refine step _ _ _ _ _ _ _ _ k4 rfl rfl ?_
  unfold capsText
  refine step _ _ _ _ _ _ _ _ k9 rfl rfl ?_
  unfold capsText
  refine step _ _ _ _ _ _ _ _ k11 rfl rfl ?_
  rfl

theorem tokenText_parts (dump : Option Bytes → Bytes) (tokens : List FIDTokenValue) (buf : Bytes) :
    ∃ s, TokenList dump tokens s ∧ tokens.foldl (fun buf t => buf ++ tokenText dump t.token) buf = buf ++ s := by
  induction tokens generalizing buf with
  | nil => exact ⟨[], .nil, by simp⟩
  | cons v vs ih =>
    obtain ⟨s, h1, h2⟩ := ih (buf ++ tokenText dump v.token)
    obtain ⟨details, h3, h4⟩ : ∃ details, TokenDetails dump v.token details ∧
        tokenText dump v.token = ascii "* Token: " ++ ascii (kindName v.token) ++ [0x0A] ++ details := by
      rw [← tokenTypeText_kind]
      obtain ⟨id, t⟩ := v
      cases t
      case accCaps mask => exact ⟨_, rfl, by rw [tokenText, capsText_lines]⟩
      case accInfo ty value => exact ⟨_, ⟨_, C70_names.2.2.2.1 ty, rfl⟩, rfl⟩
      all_goals exact ⟨[], rfl, rfl⟩
    refine ⟨_, .cons h3 h1, ?_⟩
    rw [List.foldl_cons, h2, h4]
    simp only [List.append_assoc]

/-- C84. At the end of the identification the emulated iPod logs, as one entry at the level of information, the tokens received since
its last start, in order, each with its kind, the named capabilities, the kind and value of accessory infos. -/
theorem C84_identification {clock : Clock} (dump : Option Bytes → Bytes) (pkcs : Bytes → Except Bytes (Option Bytes)) (cmds : List Command)
    (hr : ∀ x ∈ cmds, Received x) (c0 c : Ctx DevGeneral) (h0 : c0.dev = DevGeneral.zero) (h : handleAll devGeneral clock cmds c0 = .ret c)
    (cmd : Command) (hc : ∃ v, cmd.payload = .ptr (.gen .EndIDPS) v) :
    ∃ s, deviceLines dump pkcs cmd c = [⟨4, ascii "Tokens:" ++ [0x0A] ++ s, []⟩] ∧ TokenList dump (tokensSinceStart cmds) s := by
  obtain ⟨v, hc⟩ := hc
  obtain ⟨s, h1, h2⟩ := tokenText_parts dump c.dev.tokens (ascii "Tokens:" ++ [0x0A])
  rw [C52_tokens_held cmds hr c0 c h0 h] at h1
  refine ⟨s, ?_, h1⟩
  rw [deviceLines, hc]
  dsimp only
  rw [endIDPSText, h2]
  rfl

theorem recording_hom {σ : Type} (D : Device σ) : (recording D).Hom D Prod.fst := by
  constructor <;> intros <;> rfl

theorem sections_last {max : UInt8} {i : Nat} {cmds : List Command} {cmd : Command} {ds : List Bytes} (h : Sections max i (cmds ++ [cmd]) ds) :
    ∃ cur data, certSection cmd = some (cur, max, data) ∧ cur = max := by
  generalize he : cmds ++ [cmd] = l at h
  induction h generalizing cmds with
  | last cmd' data cur i h1 h2 h3 =>
    cases cmds with
    | nil => cases he; exact ⟨cur, data, h1, by rw [← UInt8.toNat_inj]; omega⟩
    | cons _ _ => simp at he
  | next cmd' data cur i cmds' ds h1 h2 h3 h4 ih =>
    cases cmds with
    | nil => simp at he; obtain ⟨_, rfl⟩ := he; cases h4
    | cons _ _ => simp only [List.cons_append, List.cons.injEq] at he; exact ih he.2
  | other cmd' i cmds' ds h1 h2 ih =>
    cases cmds with
    | nil => simp at he; obtain ⟨_, rfl⟩ := he; cases h2
    | cons _ _ => simp only [List.cons_append, List.cons.injEq] at he; exact ih he.2

theorem deviceLines_section (dump : Option Bytes → Bytes) (pkcs : Bytes → Except Bytes (Option Bytes)) {cmd : Command} {cur max : UInt8}
    {data : Bytes} (h : certSection cmd = some (cur, max, data)) (c : Ctx DevGeneral) :
    deviceLines dump pkcs cmd c = if cur < max then [] else certLines pkcs ((if cur = 0 then [] else c.certBuf) ++ data) := by
  obtain ⟨major, minor, hp, hm⟩ := certSection_some h
  rw [deviceLines, hp]
  dsimp only
  rw [if_pos hm]

/-- C84. When the sections of a certificate arrive in order, with any other commands in between, the line about the certificate is that
of their concatenation: its first common name, or the error of the parser. -/
theorem C84_certificate {clock : Clock} (dump : Option Bytes → Bytes) (pkcs : Bytes → Except Bytes (Option Bytes)) (max : UInt8)
    (cmds : List Command) (cmd : Command) (ds : List Bytes) (hr : ∀ x ∈ cmds ++ [cmd], Received x) (hs : Sections max 0 (cmds ++ [cmd]) ds)
    (c0 c : Ctx DevGeneral) (h : handleAll devGeneral clock cmds c0 = .ret c) :
    deviceLines dump pkcs cmd c =
      match pkcs ds.flatten with
      | .error text => [⟨2, text, []⟩]
      | .ok (some cn) => [⟨4, ascii "cert: CN=" ++ cn, []⟩]
      | .ok none => [] := by
  obtain ⟨cur, data, h1, rfl⟩ := sections_last hs
  have hm := handleAll_map (recording_hom devGeneral) clock cmds ⟨(c0.dev, []), c0.certBuf, c0.counter, c0.out, c0.ticks⟩
  rw [show Ctx.map Prod.fst ⟨(c0.dev, []), c0.certBuf, c0.counter, c0.out, c0.ticks⟩ = c0 from rfl, h] at hm
  cases hx : handleAll (recording devGeneral) clock cmds ⟨(c0.dev, []), c0.certBuf, c0.counter, c0.out, c0.ticks⟩ with
  | panic => rw [hx] at hm; cases hm
  | ret x =>
    rw [hx] at hm
    cases hm
    obtain ⟨y, new, hy, _⟩ := handles_total (recording devGeneral) clock cmd x
    have h2 := C51_certificate devGeneral clock cur (cmds ++ [cmd]) ds hr hs _ y (by rw [handleAll_append, hx]; simp only [Out.bind_ret, handleAll, hy])
    obtain ⟨h3, h4⟩ := (recording_step (hr cmd (by simp)) hy).2 cur cur data h1
    rw [if_neg (UInt8.lt_irrefl _)] at h4
    rw [h4] at h2
    have h5 := (List.append_inj' h2 rfl).2
    rw [deviceLines_section _ _ h1, if_neg (UInt8.lt_irrefl _), show (Ctx.map Prod.fst x).certBuf = x.certBuf from rfl, ← h3, (List.singleton_inj.1 h5 : y.certBuf = ds.flatten), certLines]
    cases pkcs ds.flatten with
    | error _ => rfl
    | ok o => cases o <;> rfl

/-- C84. Apart from that it logs nothing of its own. -/
theorem C84_silent (dump : Option Bytes → Bytes) (pkcs : Bytes → Except Bytes (Option Bytes)) (cmd : Command) (c : Ctx DevGeneral)
    (h1 : ¬ ∃ v, cmd.payload = .ptr (.gen .EndIDPS) v) (h2 : ∀ cur max data, certSection cmd = some (cur, max, data) → cur < max) :
    deviceLines dump pkcs cmd c = [] := by
  rw [deviceLines]
  split
  · rename_i v hp
    exact absurd ⟨v, hp⟩ h1
  · rename_i major minor cur max data u hp
    split
    · rename_i hm
      rw [if_pos (h2 cur max data (by rw [certSection, hp]; exact if_pos hm))]
    · rfl
  · rfl

/-- C84. What the emulated iPod logs is not mistaken for a frame sent or a change of the mode, unless the text of an error of the
certificate parser is. So C82 applies to it. -/
theorem C84_modest (dump : Option Bytes → Bytes) (pkcs : Bytes → Except Bytes (Option Bytes))
    (h : ∀ cert text, pkcs cert = .error text →
      text ∉ [ascii ">> FRAME", ascii "Enabling transaction support", ascii "Disabling transaction support"]) :
    Modest (deviceLines dump pkcs) := by
  have hT : ∀ s : Bytes, s.head? = some 0x54 ∨ s.head? = some 0x63 →
      s ∉ [ascii ">> FRAME", ascii "Enabling transaction support", ascii "Disabling transaction support"] := by
    intro s hs hm
    simp only [List.mem_cons, List.not_mem_nil, or_false] at hm
    rcases hm with rfl | rfl | rfl <;> revert hs <;> decide +kernel
  intro cmd c l hl
  rw [deviceLines] at hl
  split at hl
  · cases List.mem_singleton.1 hl
    obtain ⟨s, _, h2⟩ := tokenText_parts dump c.dev.tokens (ascii "Tokens:" ++ [0x0A])
    rw [endIDPSText, h2]
    exact hT _ (.inl rfl)
  · split at hl
    · split at hl
      · cases hl
      · rw [certLines] at hl
        split at hl
        · rename_i text hp
          cases List.mem_singleton.1 hl
          exact h _ _ hp
        · cases List.mem_singleton.1 hl
          exact hT _ (.inr rfl)
        · cases hl
    · cases hl
  · cases hl

/-- A device that cannot read certificates says so in a line that is none of the server's. -/
example : Modest (deviceLines (fun _ => ascii "x") (fun _ => .error (ascii "ber2der: input ber data is empty"))) :=
  C84_modest _ _ (by intro cert text h; cases h; decide +kernel)

example (c : Ctx DevGeneral) : deviceLines (fun _ => ascii "x") (fun _ => .ok none)
    ⟨TypeId.id (.gen .GetUIMode), none, .ptr (.gen .GetUIMode) ()⟩ c = [] :=
  C84_silent _ _ _ _ (by rintro ⟨v, h⟩; cases h) (by intro cur max data h; cases h)

/-- The device with a capabilities token and a name token, at the end of the identification. -/
example : deviceLines (fun _ => ascii "x") (fun _ => .ok none) ⟨TypeId.id (.gen .EndIDPS), none, .ptr (.gen .EndIDPS) (0, ())⟩
    ⟨⟨0, [⟨⟨0, 1⟩, .accCaps 6⟩, ⟨⟨0, 2⟩, .accInfo 1 (some [0x41, 0])⟩]⟩, [], 0, [], 0⟩ =
    [⟨4, ascii "Tokens:\n* Token: *general.FIDAccCapsToken\nCapability: AccCapAnalogLineIn\nCapability: AccCapAnalogVideoOut\n\
      * Token: *general.FIDAccInfoToken\nAccInfoName: x\n", []⟩] := by decide +kernel

/-- A certificate in two sections with another command in between. -/
example : Sections 1 0 ([⟨TypeId.id (.gen .RetDevAuthenticationInfo), none, .ptr (.gen .RetDevAuthenticationInfo) (2, 0, 0, 1, [1, 2], ())⟩,
    ⟨TypeId.id (.gen .GetUIMode), none, .ptr (.gen .GetUIMode) ()⟩] ++
    [⟨TypeId.id (.gen .RetDevAuthenticationInfo), none, .ptr (.gen .RetDevAuthenticationInfo) (2, 0, 1, 1, [3], ())⟩]) [[1, 2], [3]] :=
  .next _ _ 0 _ _ _ (by decide +kernel) rfl (by decide) (.other _ _ _ _ (by decide +kernel) (.last _ _ 1 _ (by decide +kernel) rfl rfl))

end Props
