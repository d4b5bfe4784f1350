import Verif.Spec.Damaged
import Verif.Props.Lossy
import Verif.Props.Writers
import Verif.Props.Damage

/-! # C122: packets of which bytes were changed on the way -/

namespace Props
open Go Spec Ipod Ipod.Hid

theorem zeros_sum {pad : Bytes} (h : Zeros pad) : byteSum pad = 0 := by
  induction pad with
  | nil => rfl
  | cons x pad ih =>
    rw [byteSum_cons, ih fun b hb => h b (.tail _ hb), h x (.head _)]
    rfl

/-- A frame that begins with a packet, by its length, and has no other start byte. -/
theorem header_scan {m : Nat} {hdr body : Bytes} (hh : LenHeader m hdr) (h3 : 3 ≤ (hdr ++ body).length) (hm : m + 1 ≤ body.length)
    (hf : Filler (hdr ++ body)) (spare : Bytes) :
    Scan spare (0x55 :: (hdr ++ body)) (if byteSum (hdr ++ body.take (m + 1)) % 256 = 0 then [body.take m] else []) false := by
  by_cases hs : byteSum (hdr ++ body.take (m + 1)) % 256 = 0
  · rw [if_pos hs]
    have e : body.take (m + 1) = body.take m ++ [body[m]] := (List.take_append_getElem (by omega)).symm
    have hw : IsPacket (body.take m) (0x55 :: (hdr ++ body.take m ++ [body[m]])) := by
      refine ⟨hdr, body[m], ?_, rfl, ?_⟩
      · rw [List.length_take, Nat.min_eq_left (by omega)]; exact hh
      · rw [e] at hs
        rw [List.append_assoc]; exact hs
    have hr : Scan spare (body.drop (m + 1)) [] false :=
      .done fun h => hf (List.mem_append.2 (.inr (List.mem_of_mem_drop h)))
    have := Scan.packet (j := []) (by simp [Filler]) hw hr
    have e2 : [] ++ 0x55 :: (hdr ++ body.take m ++ [body[m]]) ++ body.drop (m + 1) = 0x55 :: (hdr ++ body) := by
      rw [List.nil_append, List.cons_append, List.append_assoc hdr, ← e, List.append_assoc, List.take_append_drop]
    rw [e2] at this
    exact this
  · rw [if_neg hs]
    have hread : readPacket ⟨0x55 :: (hdr ++ body), spare⟩ = .ret (⟨hdr ++ body, spare⟩, .error Err.checksum) := by
      have := readPacket_start [] (hdr ++ body) spare (by simp [Filler])
      rw [List.nil_append, afterStart_header _ _ _ _ (parseHeader_of_LenHeader hh body h3)] at this
      rw [this, if_neg (by rw [List.length_append]; omega), if_pos]
      rw [show (hdr ++ body ++ spare).take (hdr.length + m + 1) = hdr ++ body.take (m + 1) by
        rw [List.append_assoc, Nat.add_assoc, List.take_length_add_append, List.take_append_of_le_length hm]]
      exact hs
    refine .skip (j := []) (by simp [Filler]) ?_ ?_ (.done hf)
    · rintro ⟨q, w, rest, hw, e⟩
      have := readPacket_isPacket [] w q rest spare (by simp [Filler]) hw
      rw [List.nil_append, ← e, hread] at this
      cases this
    · intro ho
      have := readPacket_overrun (j := []) (by simp [Filler]) ho
      rw [List.nil_append, hread] at this
      cases this

theorem says_unique {frame hdr body hdr' body' : Bytes} {m m' : Nat} (h : Says frame hdr body m) (h' : Says frame hdr' body' m') :
    hdr' = hdr ∧ body' = body ∧ m' = m := by
  obtain ⟨e, h⟩ := h
  obtain ⟨e', h'⟩ := h'
  rw [e, List.cons.injEq] at e'
  have e' := e'.2
  rcases h with ⟨b, hb, rfl, rfl⟩ | ⟨hi, lo, rfl, rfl⟩ <;> rcases h' with ⟨b', hb', rfl, rfl⟩ | ⟨hi', lo', rfl, rfl⟩ <;> grind

/-- Every frame of a packet says a length. -/
theorem says_exists {p w w' pad : Bytes} (hw : IsPacket p w) (hl : w'.length = w.length) (h0 : w'.head? = some 0x55) :
    ∃ hdr body m, Says (w' ++ pad) hdr body m ∧ 3 ≤ (hdr ++ body).length := by
  obtain ⟨hdr, ck, hh, rfl, _⟩ := hw
  have h4 : 4 ≤ w'.length := by
    rw [hl]
    rcases hh with ⟨b, hb, hn, rfl⟩ | ⟨hi, lo, hn, rfl⟩
    · have : b.toNat ≠ 0 := fun h => hb (UInt8.toNat_inj.1 h)
      simp only [List.length_cons, List.length_append, List.length_nil]
      omega
    · simp only [List.length_cons, List.length_append, List.length_nil]
      omega
  match w', h4, h0 with
  | a :: b :: c :: d :: r, _, h0 =>
    obtain rfl : a = 0x55 := by simpa using h0
    by_cases hb : b = 0
    · subst hb
      exact ⟨[0, c, d], r ++ pad, c.toNat * 256 + d.toNat, ⟨rfl, .inr ⟨c, d, rfl, rfl⟩⟩, by simp⟩
    · exact ⟨[b], c :: d :: (r ++ pad), b.toNat, ⟨rfl, .inl ⟨b, hb, rfl, rfl⟩⟩, by simp⟩

/-- C122, a frame: exactly what is read from the frame of a damaged packet, with zeros behind it, whatever is in memory behind the frame.
Nothing if the start byte is damaged; else it depends on the length it now says: a packet beyond the frame (a panic or nothing); nothing, if
all of the packet that was sent is read; some of its first bytes, if they happen to sum up to zero. -/
theorem C122_read {p w w' pad : Bytes} (hw : IsPacket p w) (hd : Damaged w w') (hz : Zeros pad) (spare : Bytes) :
    (w'.head? ≠ some 0x55 → Scan spare (w' ++ pad) [] false) ∧
    ∀ hdr body m, Says (w' ++ pad) hdr body m →
      (body.length < m + 1 → ∃ b, Scan spare (w' ++ pad) [] b ∧ (b = true ↔ Overruns spare (hdr ++ body))) ∧
      (m + 1 ≤ body.length → w.length ≤ 1 + hdr.length + m + 1 → Scan spare (w' ++ pad) [] false) ∧
      (1 + hdr.length + m + 1 < w.length →
        Scan spare (w' ++ pad) (if byteSum (hdr ++ body.take (m + 1)) % 256 = 0 then [body.take m] else []) false) := by
  have hpad : (0x55 : UInt8) ∉ pad := fun h => absurd (hz _ h) (by decide)
  have hpos : 0 < w'.length := by
    rw [hd.length]
    obtain ⟨hdr, ck, hh, rfl, _⟩ := hw
    simp
  obtain ⟨a, t, rfl⟩ : ∃ a t, w' = a :: t := by
    cases w' with
    | nil => simp at hpos
    | cons a t => exact ⟨a, t, rfl⟩
  have hft : (0x55 : UInt8) ∉ t := hd.filler
  refine ⟨fun h0 => .done ?_, fun hdr body m hs => ?_⟩
  · intro hm
    rw [List.cons_append, List.mem_cons, List.mem_append] at hm
    rcases hm with h | h | h
    · exact h0 (by rw [List.head?_cons, ← h])
    · exact hft h
    · exact hpad h
  · have hhead : (a :: t).head? = some 0x55 := by
      have := hs.1
      rw [List.cons_append, List.cons.injEq] at this
      rw [List.head?_cons, this.1]
    obtain ⟨hdr', body', m', hs', h3⟩ := says_exists (pad := pad) hw hd.length hhead
    obtain ⟨rfl, rfl, rfl⟩ := says_unique hs hs'
    obtain ⟨e, hh⟩ := hs
    rw [e]
    rw [List.cons_append, List.cons.injEq] at e
    obtain ⟨rfl, e⟩ := e
    have hf : Filler (hdr' ++ body') := by
      intro hm
      rw [← e, List.mem_append] at hm
      rcases hm with h | h
      · exact hft h
      · exact hpad h
    have hlen : t.length + pad.length = hdr'.length + body'.length := by
      rw [← List.length_append, e, List.length_append]
    have hwl : t.length + 1 = w.length := hd.length
    refine ⟨fun hb => short_scan hh h3 hb hf spare, fun hb hl => ?_, fun hl => header_scan hh h3 (by omega) hf spare⟩
    have := header_scan hh h3 hb hf spare
    rw [if_neg] at this
    · exact this
    · have hsum : byteSum (hdr' ++ body'.take (m' + 1)) = byteSum t := by
        rw [← List.take_length_add_append, ← e, List.take_append, List.take_of_length_le (by omega), byteSum_append,
          zeros_sum fun b hb => hz b (List.mem_of_mem_take hb)]
        omega
      rw [hsum]
      intro h0
      rcases hd.noticeable with h | h
      · exact h hhead
      · obtain ⟨_, _, _, rfl, hws⟩ := hw
        exact h (by rw [List.tail_cons, List.tail_cons, h0, hws])

/-- One changed byte is a noticeable change. -/
theorem hit_damaged {p w : Bytes} (hw : IsPacket p w) (i : Nat) (hi : i < w.length) (b : UInt8) (hb : w[i] ≠ b)
    (hf : Filler (w.set i b).tail) : Damaged w (w.set i b) := by
  refine ⟨by simp, hf, ?_⟩
  obtain ⟨hdr, ck, _, rfl, _⟩ := hw
  cases i with
  | zero =>
    left
    simp only [List.set_cons_zero, List.head?_cons, ne_eq, Option.some.injEq]
    exact fun h => hb h.symm
  | succ i =>
    right
    simp only [List.set_cons_succ, List.tail_cons, List.getElem_cons_succ, List.length_cons] at hb hi ⊢
    have hi : i < (hdr ++ p ++ [ck]).length := by omega
    have key : ∀ (l : Bytes) (h : i < l.length), l[i] ≠ b → byteSum (l.set i b) % 256 ≠ byteSum l % 256 := ?_
    · exact key _ hi hb
    clear hb hi hf
    intro l hi hb
    have e1 : l = l.take i ++ l[i] :: l.drop (i + 1) := by rw [List.getElem_cons_drop, List.take_append_drop]
    have e2 : l.set i b = l.take i ++ b :: l.drop (i + 1) := by rw [List.set_eq_take_append_cons_drop, if_pos hi]
    intro h
    rw [e2, byteSum_append, byteSum_cons] at h
    have h' := congrArg byteSum e1
    rw [byteSum_append, byteSum_cons] at h'
    have := b.toNat_lt
    have := l[i].toNat_lt
    exact hb (UInt8.toNat_inj.1 (by omega))

/-- If the bytes of the length are not touched, it says what it said. -/
theorem length_kept {p w w' pad : Bytes} (hw : IsPacket p w) (hl : w'.length = w.length)
    (hk : w'.take (w.length - (p.length + 1)) = w.take (w.length - (p.length + 1))) :
    ∃ hdr body, Says (w' ++ pad) hdr body p.length ∧ w.length = 1 + hdr.length + p.length + 1 := by
  obtain ⟨hdr, ck, hh, rfl, _⟩ := hw
  have e : (0x55 :: (hdr ++ p ++ [ck])).length - (p.length + 1) = hdr.length + 1 := by
    simp only [List.length_cons, List.length_append, List.length_nil]; omega
  rw [e] at hk
  have h2 : w' = 0x55 :: hdr ++ w'.drop (hdr.length + 1) := by
    conv => lhs; rw [← List.take_append_drop (hdr.length + 1) w']
    rw [hk]
    congr 1
    simp
  refine ⟨hdr, w'.drop (hdr.length + 1) ++ pad, ⟨?_, hh⟩, ?_⟩
  · conv => lhs; rw [h2]
    simp
  · simp only [List.length_cons, List.length_append, List.length_nil]; omega

/-- C122, for damage to anything but the length: nothing is read. -/
theorem C122_unread {p w w' pad : Bytes} (hw : IsPacket p w) (hd : Damaged w w') (hz : Zeros pad)
    (hk : w'.head? ≠ some 0x55 ∨ w'.take (w.length - (p.length + 1)) = w.take (w.length - (p.length + 1))) (spare : Bytes) :
    Scan spare (w' ++ pad) [] false := by
  rcases hk with hk | hk
  · exact (C122_read hw hd hz spare).1 hk
  · obtain ⟨hdr, body, h1, h2⟩ := length_kept (pad := pad) hw hd.length hk
    refine ((C122_read hw hd hz spare).2 _ _ _ h1).2.1 ?_ (by omega)
    have := congrArg List.length h1.1
    have := hd.length
    simp only [List.length_append, List.length_cons] at *
    omega

/-! ### sessions -/

theorem arrival_scan {a : Arrival} (h : a.Ok) (hu : a.unharmed = false) (spare : Bytes) :
    ∃ b, Scan spare a.frame [] b ∧ (b = true → Overruns spare a.frame.tail) := by
  obtain ⟨p, hp⟩ := h.packet
  obtain ⟨hd, hz, hn⟩ := h.damaged (by simpa [Arrival.unharmed] using hu)
  by_cases h0 : a.came.head? = some 0x55
  · obtain ⟨hdr, body, m, hs, _⟩ := says_exists (pad := a.behind) hp hd.length h0
    obtain ⟨h1, h2, _⟩ := (C122_read hp hd hz spare).2 hdr body m hs
    by_cases hb : body.length < m + 1
    · obtain ⟨b, h3, h4⟩ := h1 hb
      refine ⟨b, h3, fun hb => ?_⟩
      rw [show a.frame.tail = hdr ++ body by rw [Arrival.frame, hs.1, List.tail_cons]]
      exact h4.1 hb
    · exact ⟨false, h2 (by omega) (hn _ _ _ hs), by simp⟩
  · exact ⟨false, (C122_read hp hd hz spare).1 h0, by simp⟩

/-- C122, the server: it does with the frames what it does with those of the packets that arrived unharmed, unless a packet now says it is so
long that it goes beyond the memory behind its frame or is completed by it: then it panics. -/
theorem C122_server_partial {σ : Type} (D : Device σ) (clock : Clock) (as : List Arrival) (h : ∀ a ∈ as, a.Ok) (fs ws : List Slice)
    (hf : fs.map (·.data) = as.map (·.frame)) (hw : ws.map (·.data) = (as.filter (·.unharmed)).map (·.frame)) (s : Srv σ)
    (hs : s.ctx.out = []) :
    (processFrames D clock (fs.map .ok) s = .panic ∧
      ∃ f ∈ fs, ∃ a ∈ as, f.data = a.frame ∧ a.unharmed = false ∧ Overruns f.spare f.data.tail) ∨
    processFrames D clock (fs.map .ok) s = processFrames D clock (ws.map .ok) s := by
  induction as generalizing fs ws s with
  | nil =>
    rw [List.map_nil, List.map_eq_nil_iff] at hf
    rw [List.filter_nil, List.map_nil, List.map_eq_nil_iff] at hw
    subst hf; subst hw
    exact .inr rfl
  | cons a as ih =>
    have ih := ih fun a ha => h a (.tail _ ha)
    have ha := h a (.head _)
    have lift : ∀ {fs' : List Slice} {f : Slice},
        (∃ f ∈ fs', ∃ a ∈ as, f.data = a.frame ∧ a.unharmed = false ∧ Overruns f.spare f.data.tail) →
        ∃ g ∈ f :: fs', ∃ b ∈ a :: as, g.data = b.frame ∧ b.unharmed = false ∧ Overruns g.spare g.data.tail := by
      rintro fs' f ⟨g, hg, u, hu, r⟩
      exact ⟨g, .tail _ hg, u, .tail _ hu, r⟩
    rcases fs with _ | ⟨f, fs⟩
    · cases hf
    rw [List.map_cons, List.map_cons, List.cons.injEq] at hf
    obtain ⟨hf1, hf2⟩ := hf
    obtain ⟨fd, fsp⟩ := f
    obtain rfl : fd = a.frame := hf1
    cases hu : a.unharmed with
    | true =>
      rw [List.filter_cons_of_pos hu, List.map_cons] at hw
      rcases ws with _ | ⟨w, ws⟩
      · cases hw
      rw [List.map_cons, List.cons.injEq] at hw
      obtain ⟨hw1, hw2⟩ := hw
      obtain ⟨wd, wsp⟩ := w
      obtain rfl : wd = a.frame := hw1
      obtain ⟨p, hp⟩ := ha.packet
      have e : processFrame D clock s ⟨a.frame, fsp⟩ = processFrame D clock s ⟨a.frame, wsp⟩ := by
        have h : ∀ sp, Scan sp a.frame [p] false := by
          intro sp
          rw [Arrival.frame, show a.came = a.packet by simpa [Arrival.unharmed] using hu]
          simpa using Scan.packet (j := []) (by simp [Filler]) hp (.done ha.behind)
        rw [processFrame_course D clock s (h fsp), processFrame_course D clock s (h wsp)]
      simp only [List.map_cons, processFrames, e]
      cases hx : processFrame D clock s ⟨a.frame, wsp⟩ with
      | panic => exact .inr rfl
      | ret x =>
        simp only [Out.bind_ret]
        rcases ih fs ws hf2 hw2 x.1 (processFrame_out hx) with ⟨h1, h2⟩ | h1
        · exact .inl ⟨by rw [h1]; rfl, lift h2⟩
        · exact .inr (by rw [h1])
    | false =>
      rw [List.filter_cons_of_neg (by rw [hu]; decide)] at hw
      obtain ⟨b, hb, hbo⟩ := arrival_scan ha hu fsp
      rcases scan_lost D clock hs hb with ⟨hbt, h1⟩ | h1
      · exact .inl ⟨by simp only [List.map_cons, processFrames, h1]; rfl, _, .head _, a, .head _, rfl, hu, hbo hbt⟩
      · simp only [List.map_cons, processFrames, h1, Out.bind_ret, List.nil_append]
        rcases ih fs ws hf2 hw s hs with ⟨h1, h2⟩ | h1
        · exact .inl ⟨by rw [h1]; rfl, lift h2⟩
        · refine .inr ?_
          rw [h1]
          cases processFrames D clock (ws.map .ok) s <;> rfl

theorem damaged_other {p w : Bytes} (hw : IsPacket p w) : ¬ Damaged w w := by
  rintro ⟨_, _, h | h⟩
  · obtain ⟨hdr, ck, _, rfl, _⟩ := hw
    exact h rfl
  · exact h rfl

theorem form_mem {a b : List Report} (h : a.map form = b.map form) {r : Report} (hr : r ∈ a) : ∃ r' ∈ b, form r' = form r := by
  have : form r ∈ b.map form := h ▸ List.mem_map_of_mem hr
  exact List.mem_map.1 this

/-- Reports with other data are again reports a frame may be cut into. -/
theorem altered_cut {defs : List ReportDef} {t : Transfer} (hc : Cut defs t.frame t.sent) (ha : t.Altered) :
    Cut defs (dataOf t.got) t.got := by
  have ha : t.got.map form = t.sent.map form := ha
  refine ⟨?_, ?_, [], by simp, by simp [Zeros], ?_⟩
  · intro r hr
    obtain ⟨r', h1, h2⟩ := form_mem ha hr
    obtain ⟨h3, h4⟩ := hc.parts r' h1
    unfold form at h2
    simp only [Prod.mk.injEq] at h2
    refine ⟨?_, by unfold Known at h4 ⊢; rw [← h2.2.1]; exact h4⟩
    have key : ∀ b, Accepted defs r' b → b = r'.data → Accepted defs r r.data := by
      rintro b ⟨pre, post, d, e1, e2, e3, e4⟩ hb
      have hlen := congrArg List.length hb
      rw [List.length_take] at hlen
      have := Accepted.mk (r := r) pre post d e1 (by rw [← h2.1]; exact e2) (by rw [← h2.1]; exact e3) e4
      rwa [List.take_of_length_le (by omega)] at this
    exact key _ h3 rfl
  · rcases hc.shape with ⟨r, e, h0⟩ | ⟨first, mid, last, e, h1, h2, h3, h4⟩
    · rw [e, List.map_cons, List.map_nil, List.map_eq_cons_iff] at ha
      obtain ⟨r', l, e1, e2, e3⟩ := ha
      rw [List.map_eq_nil_iff] at e3
      subst e3
      refine .inl ⟨r', e1, ?_⟩
      unfold form at e2
      simp only [Prod.mk.injEq] at e2
      rw [e2.2.1, h0]
    · rw [e, List.map_cons, List.map_append, List.map_eq_cons_iff] at ha
      obtain ⟨r', l, e1, e2, e3⟩ := ha
      rw [List.map_eq_append_iff] at e3
      obtain ⟨m', l', e4, e5, e6⟩ := e3
      rw [List.map_cons, List.map_nil, List.map_eq_cons_iff] at e6
      obtain ⟨r'', l'', e7, e8, e9⟩ := e6
      rw [List.map_eq_nil_iff] at e9
      subst e9 e7 e4
      unfold form at e2 e8
      simp only [Prod.mk.injEq] at e2 e8
      refine .inr ⟨r', m', r'', e1, by rw [e2.2.1, h1], fun r hr => ?_, by rw [e8.2.1, h3], by omega⟩
      obtain ⟨r0, h5, h6⟩ := form_mem e5 hr
      unfold form at h6
      simp only [Prod.mk.injEq] at h6
      rw [← h6.2.1, h2 r0 h5]
  · obtain ⟨pad, _, _, h⟩ := hc.data
    intro r hr
    obtain ⟨r', h1, h2⟩ := form_mem (a := t.got.tail) (b := t.sent.tail) (by rw [List.map_tail, List.map_tail, ha]) hr
    have := h r' h1
    unfold form at h2
    simp only [Prod.mk.injEq] at h2
    simp only [List.length_nil]
    omega

/-- C122, frames: every frame is delivered, as what became of it. -/
theorem C122_frames (grow : Growth) (defs : List ReportDef) (hg : GoodTable defs) (ts : List Transfer)
    (h : ∀ t ∈ ts, Cut defs t.frame t.sent ∧ t.Altered) (buf : Slice) (k : Nat) :
    readFrames grow defs (ts.length + k) (arrived ts) buf =
      .ret (ts.map (fun t => .ok (dataOf t.got)) ++ List.replicate k (.error .eof)) := by
  let us := ts.map fun t => (⟨dataOf t.got, t.got, t.got⟩ : Transfer)
  have hu : ∀ u ∈ us, Heads defs u := by
    intro u hu
    obtain ⟨t, ht, rfl⟩ := List.mem_map.1 hu
    exact ⟨altered_cut (h t ht).1 (h t ht).2, .refl _, .inr rfl⟩
  have e : us.filter (·.ended) = us := by
    rw [List.filter_eq_self]
    intro u hu'
    refine ended_iff.2 (whole_ended (hu u hu') ?_)
    obtain ⟨t, _, rfl⟩ := List.mem_map.1 hu'
    rfl
  have ha : arrived us = arrived ts := by
    simp only [arrived, us, List.flatMap_map]
  have := C120_frames grow defs hg us hu buf k
  rw [e, ha, List.length_map, List.map_map] at this
  exact this

/-- C122, all of it: what the server does is what it does if only the packets that were not damaged arrive, unless it panics. -/
theorem C122_served_partial {σ : Type} (D : Device σ) (clock : Clock) (grow : Growth) (defs : List ReportDef) (hg : GoodTable defs)
    (ts : List Transfer) (h : ∀ t ∈ ts, Cut defs t.frame t.sent ∧ t.Struck) (buf buf' : Slice) (k k' : Nat) (s : Srv σ)
    (hs : s.ctx.out = []) :
    served D clock grow defs (ts.length + k) (arrived ts) buf s = .panic ∨
    served D clock grow defs (ts.length + k) (arrived ts) buf s =
      served D clock grow defs ((ts.filter (·.whole)).length + k') (arrived (ts.filter (·.whole))) buf' s := by
  have h1 := C122_frames grow defs hg ts (fun t ht => ⟨(h t ht).1, (h t ht).2.altered⟩) buf k
  have h2 := C122_frames grow defs hg (ts.filter (·.whole))
    (fun t ht => ⟨(h t (List.mem_filter.1 ht).1).1, (h t (List.mem_filter.1 ht).1).2.altered⟩) buf' k'
  rw [show (fun t : Transfer => (Except.ok (dataOf t.got) : Except Err Bytes)) = Except.ok ∘ fun t => dataOf t.got from rfl,
    ← List.map_map] at h1 h2
  obtain ⟨fs, f1, f2⟩ := served_frames D clock grow defs _ _ buf s h1
  obtain ⟨ws, w1, w2⟩ := served_frames D clock grow defs _ _ buf' s h2
  rw [f2, w2]
  let g : Transfer → Arrival := fun t => ⟨t.frame, (dataOf t.got).take t.frame.length, (dataOf t.got).drop t.frame.length⟩
  have hfr : ∀ t, (g t).frame = dataOf t.got := fun t => List.take_append_drop _ _
  have hcame : ∀ t ∈ ts, (t.whole = true → (g t).came = t.frame ∧ Zeros (g t).behind) ∧ (t.whole = false → Damaged t.frame (g t).came ∧
      Zeros (g t).behind ∧ NotShorter (g t).frame t.frame.length) := by
    intro t ht
    obtain ⟨hc, hst⟩ := h t ht
    obtain ⟨pad, e, hz, _⟩ := hc.data
    refine ⟨fun hw => ?_, fun hw => ?_⟩
    · have : t.got = t.sent := of_decide_eq_true hw
      simp only [g, this, e, List.take_left', List.drop_left', true_and]
      exact hz
    · rcases hst.harm with hcm | ⟨w', pad', e', hd, hz', hn⟩
      · exact absurd hcm (of_decide_eq_false hw)
      · have hl := hd.length
        refine ⟨?_, ?_, by rw [hfr]; exact hn⟩
        · simp only [g, e', List.take_left' hl]; exact hd
        · simp only [g, e', List.drop_left' hl]; exact hz'
  have hunh : ∀ t ∈ ts, (g t).unharmed = t.whole := by
    intro t ht
    obtain ⟨p, hp, _⟩ := (h t ht).2.packet
    cases hw : t.whole with
    | true => simpa [Arrival.unharmed] using ((hcame t ht).1 hw).1
    | false =>
      have hd := ((hcame t ht).2 hw).1
      simp only [Arrival.unharmed, beq_eq_false_iff_ne]
      intro e
      rw [e] at hd
      exact damaged_other hp hd
  have hok : ∀ a ∈ ts.map g, a.Ok := by
    intro a ha
    obtain ⟨t, ht, rfl⟩ := List.mem_map.1 ha
    obtain ⟨p, hp, _⟩ := (h t ht).2.packet
    have hz : Zeros (g t).behind := by
      cases hw : t.whole with
      | true => exact ((hcame t ht).1 hw).2
      | false => exact ((hcame t ht).2 hw).2.1
    refine ⟨⟨p, hp⟩, fun h55 => absurd (hz _ h55) (by decide), fun hne => ?_⟩
    cases hw : t.whole with
    | true => exact absurd ((hcame t ht).1 hw).1 hne
    | false => exact (hcame t ht).2 hw
  have hfilt : (ts.map g).filter (·.unharmed) = (ts.filter (·.whole)).map g := by
    rw [List.filter_map]
    congr 1
    exact List.filter_congr fun t ht => hunh t ht
  rcases C122_server_partial D clock (ts.map g) hok fs ws (by rw [f1, List.map_map]; exact List.map_congr_left fun t _ => (hfr t).symm)
    (by rw [w1, hfilt, List.map_map]; exact List.map_congr_left fun t _ => (hfr t).symm) s hs with ⟨h, _⟩ | h
  · exact .inl h
  · exact .inr h

/-! ### where it fails -/

/-- What the server writes for one frame, when it was just started, and `spare` is in memory behind the frame. -/
abbrev answerTo (frame spare : Bytes) : Out (List Bytes) :=
  written (processFrames devGeneral (fun _ => ⟨2024, 1, 2, 3, 4⟩) [.ok ⟨frame, spare⟩] (Srv.init DevGeneral.zero))

/-- A successful acknowledgement of RequestiPodName, with two bytes more. -/
def ackLong : Bytes := [0x55, 0x06, 0x00, 0x02, 0x00, 0x07, 0xF7, 0x01, 0xF9]

theorem ackLong_packet : IsPacket [0x00, 0x02, 0x00, 0x07, 0xF7, 0x01] ackLong :=
  ⟨[0x06], 0xF9, .inl ⟨0x06, by decide, by decide, rfl⟩, by decide, by decide⟩

/-- An acknowledgement. -/
def ackShort : Bytes := [0x55, 0x04, 0x00, 0x02, 0x00, 0x07, 0xF3]

theorem ackShort_packet : IsPacket [0x00, 0x02, 0x00, 0x07] ackShort :=
  ⟨[0x04], 0xF3, .inl ⟨0x04, by decide, by decide, rfl⟩, by decide, by decide⟩

/-- An acknowledgement with more bytes, one of them 0x54. -/
def ackInner : Bytes := [0x55, 0x07, 0x00, 0x02, 0x54, 0x02, 0x00, 0x07, 0xF7, 0xA3]

theorem ackInner_packet : IsPacket [0x00, 0x02, 0x54, 0x02, 0x00, 0x07, 0xF7] ackInner :=
  ⟨[0x07], 0xA3, .inl ⟨0x07, by decide, by decide, rfl⟩, by decide, by decide⟩

/-- C122 does not hold of all damage, not even of one byte. Of a packet that is not answered, the length byte is replaced by 0, so that the next
two bytes are the length: the server answers a command that is in no packet sent. The length byte is replaced by a larger one: the server
panics. A byte of the payload becomes the start byte: the server answers a command that is in no packet sent. -/
theorem C122_fails :
    (Damaged ackLong (ackLong.set 1 0x00) ∧ answerTo ackLong [] = .ret [] ∧ answerTo (ackLong.set 1 0x00) [] =
      .ret [[0x55, 0x0E, 0x00, 0x08, 0x69, 0x70, 0x6F, 0x64, 0x2D, 0x67, 0x61, 0x64, 0x67, 0x65, 0x74, 0x00, 0xA5]]) ∧
    (Damaged ackShort (ackShort.set 1 0xF0) ∧ answerTo ackShort (List.replicate 64 0) = .ret [] ∧
      answerTo (ackShort.set 1 0xF0) (List.replicate 64 0) = .panic) ∧
    (ackInner[4]? = some 0x54 ∧ answerTo ackInner [] = .ret [[0x55, 0x04, 0x00, 0x02, 0x05, 0x02, 0xF3]] ∧ answerTo (ackInner.set 4 0x55) [] =
      .ret [[0x55, 0x0E, 0x00, 0x08, 0x69, 0x70, 0x6F, 0x64, 0x2D, 0x67, 0x61, 0x64, 0x67, 0x65, 0x74, 0x00, 0xA5]]) :=
  ⟨⟨hit_damaged ackLong_packet 1 (by decide) _ (by decide) (by unfold Filler; decide), by decide +kernel, by decide +kernel⟩,
    ⟨hit_damaged ackShort_packet 1 (by decide) _ (by decide) (by unfold Filler; decide), by decide +kernel, by decide +kernel⟩,
    by decide, by decide +kernel, by decide +kernel⟩

/-- Hypotheses of `C122_read` and `C122_unread`: a byte of the payload is changed. -/
example : Scan [0, 0] (ackShort.set 4 0x01 ++ [0, 0, 0]) [] false :=
  C122_unread ackShort_packet (hit_damaged ackShort_packet 4 (by decide) _ (by decide) (by unfold Filler; decide)) (by unfold Zeros; decide)
    (.inr (by decide)) _

/-- The start byte is changed. -/
example : Scan [] (ackShort.set 0 0x15) [] false := by
  have := C122_unread (pad := []) ackShort_packet (hit_damaged ackShort_packet 0 (by decide) 0x15 (by decide) (by unfold Filler; decide))
    (by unfold Zeros; decide) (.inl (by decide)) []
  simpa using this

/-- The length now says 2: `[0x00, 0x02]` is read if the checksum fits, which it does not. -/
example : Scan [] (ackShort.set 1 0x02 ++ [0x00]) [] false := by
  have h := C122_read (pad := [0x00]) ackShort_packet (hit_damaged ackShort_packet 1 (by decide) 0x02 (by decide) (by unfold Filler; decide))
    (by unfold Zeros; decide) []
  exact (h.2 [0x02] [0x00, 0x02, 0x00, 0x07, 0xF3, 0x00] 2 ⟨rfl, .inl ⟨0x02, by decide, by decide, rfl⟩⟩).2.2 (by decide)

/-- A report of RequestiPodName between a damaged one before it and one behind it. -/
def struckTwice : List Transfer :=
  [⟨ackShort, [⟨1, 2, [0x55, 0x04, 0x00, 0x02]⟩, ⟨1, 1, [0x00, 0x07, 0xF3, 0x00]⟩],
      [⟨1, 2, [0x55, 0x04, 0x00, 0x02]⟩, ⟨1, 1, [0x01, 0x07, 0xF3, 0x00]⟩]⟩,
    ⟨[0x55, 0x02, 0x00, 0x07, 0xF7], [⟨1, 2, [0x55, 0x02, 0x00, 0x07]⟩, ⟨1, 1, [0xF7, 0x00, 0x00, 0x00]⟩],
      [⟨1, 2, [0x55, 0x02, 0x00, 0x07]⟩, ⟨1, 1, [0xF7, 0x00, 0x00, 0x00]⟩]⟩,
    ⟨[0x55, 0x02, 0x00, 0x07, 0xF7], [⟨1, 2, [0x55, 0x02, 0x00, 0x07]⟩, ⟨1, 1, [0xF7, 0x00, 0x00, 0x00]⟩],
      [⟨1, 2, [0x57, 0x02, 0x00, 0x07]⟩, ⟨1, 1, [0xF7, 0x00, 0x00, 0x00]⟩]⟩]

theorem struckTwice_ok : ∀ t ∈ struckTwice, Cut fours t.frame t.sent ∧ t.Struck := by
  have hname : IsPacket [0x00, 0x07] [0x55, 0x02, 0x00, 0x07, 0xF7] :=
    ⟨[0x02], 0xF7, .inl ⟨0x02, by decide, by decide, rfl⟩, by decide, by decide⟩
  intro t ht
  simp only [struckTwice, List.mem_cons, List.not_mem_nil, or_false] at ht
  rcases ht with rfl | rfl | rfl
  · refine ⟨fours_cut (by decide) ⟨16, by decide +kernel⟩, by unfold Transfer.Altered; decide, ⟨_, ackShort_packet, by unfold Filler; decide⟩,
      .inr ⟨ackShort.set 4 0x01, [0x00], by decide, hit_damaged ackShort_packet 4 (by decide) _ (by decide) (by unfold Filler; decide),
        by unfold Zeros; decide, ?_⟩⟩
    intro hdr body m h
    have h0 : Says (dataOf [⟨1, 2, [0x55, 0x04, 0x00, 0x02]⟩, ⟨1, 1, [0x01, 0x07, 0xF3, 0x00]⟩]) [0x04]
      [0x00, 0x02, 0x01, 0x07, 0xF3, 0x00] 4 := ⟨rfl, .inl ⟨0x04, by decide, by decide, rfl⟩⟩
    obtain ⟨rfl, rfl, rfl⟩ := says_unique h0 h
    decide
  · exact ⟨fours_cut (by decide) ⟨16, by decide +kernel⟩, by unfold Transfer.Altered; decide, ⟨_, hname, by unfold Filler; decide⟩, .inl rfl⟩
  · refine ⟨fours_cut (by decide) ⟨16, by decide +kernel⟩, by unfold Transfer.Altered; decide, ⟨_, hname, by unfold Filler; decide⟩,
      .inr ⟨[0x57, 0x02, 0x00, 0x07, 0xF7], [0x00, 0x00, 0x00], by decide,
        hit_damaged hname 0 (by decide) 0x57 (by decide) (by unfold Filler; decide), by unfold Zeros; decide, ?_⟩⟩
    intro hdr body m h
    have := h.1
    simp [dataOf] at this

/-- Hypotheses of `C122_frames`, `C122_server_partial` and `C122_served_partial`: one RequestiPodName is answered, once. -/
example : written (served devGeneral (fun _ => ⟨2024, 1, 2, 3, 4⟩) (fun _ n => 2 * n) fours 4 (arrived struckTwice) ⟨[], List.replicate 64 0⟩
      (Srv.init DevGeneral.zero)) =
    .ret [[0x55, 0x0E, 0x00, 0x08, 0x69, 0x70, 0x6F, 0x64, 0x2D, 0x67, 0x61, 0x64, 0x67, 0x65, 0x74, 0x00, 0xA5]] := by
  rcases C122_served_partial devGeneral (fun _ => ⟨2024, 1, 2, 3, 4⟩) (fun _ n => 2 * n) fours fours_good struckTwice struckTwice_ok
    ⟨[], List.replicate 64 0⟩ ⟨[], []⟩ 1 1 (Srv.init DevGeneral.zero) rfl with h | h
  · exact absurd (congrArg written h) (by decide +kernel)
  · exact (congrArg written h).trans (by decide +kernel)

end Props
