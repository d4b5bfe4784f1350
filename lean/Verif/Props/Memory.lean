import Verif.Spec.Memory
import Verif.Lemmas.Alias
import Verif.Props.Packet

/-! C108: who may keep and change which bytes. -/

namespace Props
open Go Spec Ipod Ipod.Alias Ipod.Memory Spec.Memory

/-! ### Storing and appending -/

theorem mem_store_getD (m : Mem) (a off : Nat) (p : Bytes) (b : Nat) :
    (store m a off p).getD b [] =
      if a = b ∧ b < m.length then (m.getD b []).take off ++ p ++ (m.getD b []).drop (off + p.length) else m.getD b [] := by
  simp only [store, List.getD_eq_getElem?_getD, List.getElem?_modify]
  by_cases hb : b < m.length
  · by_cases hab : a = b
    · subst hab; simp [hb]
    · simp [hab]
  · simp [hb]

theorem mem_store_length {m : Mem} {a off : Nat} {p : Bytes} (h : off + p.length ≤ (m.getD a []).length) (b : Nat) :
    ((store m a off p).getD b []).length = (m.getD b []).length := by
  rw [mem_store_getD]
  split
  · rename_i hab
    obtain ⟨rfl, _⟩ := hab
    simp only [List.length_append, List.length_take, List.length_drop]
    omega
  · rfl

theorem mem_store_wf {m : Mem} {a off : Nat} {p : Bytes} (h : off + p.length ≤ (m.getD a []).length) {r : Ref}
    (hr : WF m r) : WF (store m a off p) r := by
  refine ⟨hr.1, ?_⟩
  rw [mem_store_length h]; exact hr.2

/-- Storing before or behind a slice, or in another array, does not change it. -/
theorem mem_store_content {m : Mem} {a off : Nat} {p : Bytes} (h : off + p.length ≤ (m.getD a []).length) {r : Ref}
    (hd : r.arr ≠ a ∨ r.off + r.len ≤ off ∨ off + p.length ≤ r.off) : content (store m a off p) r = content m r := by
  simp only [content]
  rw [mem_store_getD]
  split
  · rename_i hab
    obtain ⟨rfl, _⟩ := hab
    rcases hd with hd | hd | hd
    · exact absurd rfl hd
    · apply List.ext_getElem?
      intro i
      simp only [List.getElem?_take, List.getElem?_drop, List.getElem?_append, List.length_append, List.length_take]
      by_cases hi : i < r.len
      · simp only [if_pos hi]
        rw [if_pos (by omega), if_pos (by omega), if_pos (by omega)]
      · simp [hi]
    · apply List.ext_getElem?
      intro i
      simp only [List.getElem?_take, List.getElem?_drop, List.getElem?_append, List.length_append, List.length_take]
      by_cases hi : i < r.len
      · simp only [if_pos hi]
        rw [if_neg (by omega)]
        congr 1; omega
      · simp [hi]
  · rfl

theorem mem_extend_getD {m : Mem} {x : Bytes} {b : Nat} (h : b ≠ m.length) : (m ++ [x]).getD b [] = m.getD b [] := by
  simp only [List.getD_eq_getElem?_getD, List.getElem?_append]
  split
  · rfl
  · rename_i hb
    rw [List.getElem?_eq_none (by simp; omega), List.getElem?_eq_none (by omega)]

theorem mem_extend_wf {m : Mem} {x : Bytes} {r : Ref} (hr : WF m r) : WF (m ++ [x]) r := by
  refine ⟨hr.1, ?_⟩
  by_cases h : r.arr = m.length
  · have := hr.2
    rw [h, List.getD_eq_getElem?_getD, List.getElem?_eq_none (by omega)] at this
    simp at this; omega
  · rw [mem_extend_getD h]; exact hr.2

theorem mem_extend_content {m : Mem} {x : Bytes} {r : Ref} (hr : WF m r) : content (m ++ [x]) r = content m r := by
  by_cases h : r.arr = m.length
  · have h2 := hr.2
    rw [h, List.getD_eq_getElem?_getD, List.getElem?_eq_none (by omega)] at h2
    have h1 := hr.1
    have : r.len = 0 := by simp at h2; omega
    simp [content, this]
  · simp only [content, mem_extend_getD h]

/-- A slice that appending to `s` leaves alone. -/
def Before (s r : Ref) : Prop := r.arr ≠ s.arr ∨ r.off + r.len ≤ s.off + s.len

theorem append_spec (grow : Growth) {m : Mem} {s : Ref} (hs : WF m s) (p : Bytes) {m' : Mem} {s' : Ref}
    (h : append grow m s p = (m', s')) :
    WF m' s' ∧ content m' s' = content m s ++ p ∧ (s.arr < m.length → s.off = 0 → s'.arr < m'.length ∧ s'.off = 0) ∧
    ∀ r, WF m r → Before s r → WF m' r ∧ content m' r = content m r ∧ Before s' r := by
  rw [append] at h
  split at h
  · rename_i hc
    cases h
    have hfit : s.off + s.len + p.length ≤ (m.getD s.arr []).length := by have := hs.2; omega
    refine ⟨⟨?_, ?_⟩, ?_, by simp +contextual [store], ?_⟩
    · exact hc
    · rw [mem_store_length hfit]; exact hs.2
    · by_cases hp : p = []
      · subst hp
        simp only [List.append_nil, List.length_nil, Nat.add_zero]
        exact mem_store_content hfit (Or.inr (Or.inl (Nat.le_refl _)))
      · have hl : s.arr < m.length := by
          rcases Nat.lt_or_ge s.arr m.length with hl | hl
          · exact hl
          · rw [List.getD_eq_getElem?_getD, List.getElem?_eq_none hl] at hfit
            have : p.length ≠ 0 := by simpa using hp
            simp only [Option.getD_none, List.length_nil] at hfit; omega
        simp only [content]
        rw [mem_store_getD, if_pos ⟨rfl, hl⟩]
        generalize hA : m.getD s.arr [] = A at hfit
        apply List.ext_getElem?
        intro i
        simp only [List.getElem?_take, List.getElem?_drop, List.getElem?_append, List.length_append, List.length_take,
          List.length_drop]
        by_cases h1 : i < s.len
        · rw [if_pos (by omega), if_pos (by omega), if_pos (by omega), if_pos (by omega), if_pos h1, if_pos (by omega)]
        · by_cases h2 : i < s.len + p.length
          · rw [if_pos h2, if_pos (by omega), if_neg (by omega), if_neg (by omega)]
            congr 1; omega
          · rw [if_neg h2, if_neg (by omega), List.getElem?_eq_none (by omega)]
    · intro r hr hb
      refine ⟨mem_store_wf hfit hr, mem_store_content hfit ?_, ?_⟩
      · rcases hb with hb | hb
        · exact Or.inl hb
        · exact Or.inr (Or.inl hb)
      · rcases hb with hb | hb
        · exact Or.inl hb
        · exact Or.inr (by simp only; omega)
  · cases h
    have hlen := content_length hs
    refine ⟨⟨?_, ?_⟩, ?_, by simp, ?_⟩
    · simp only; omega
    · simp [List.getD_eq_getElem?_getD, hlen]; omega
    · simp only [content]
      simp only [List.getD_eq_getElem?_getD, List.getElem?_append, Nat.lt_irrefl, if_false, Nat.sub_self,
        List.getElem?_cons_zero, Option.getD_some, List.drop_zero]
      have e : (List.take s.len (List.drop s.off (m[s.arr]?.getD [])) ++ p).length = s.len + p.length := by
        simp only [content, List.getD_eq_getElem?_getD] at hlen
        rw [List.length_append, hlen]
      rw [List.take_left' e]
    · intro r hr _
      refine ⟨mem_extend_wf hr, mem_extend_content hr, ?_⟩
      by_cases ha : r.arr = m.length
      · have h2 := hr.2
        rw [ha, List.getD_eq_getElem?_getD, List.getElem?_eq_none (by omega)] at h2
        have h1 := hr.1
        simp at h2
        exact Or.inr (by simp only; omega)
      · exact Or.inl ha

/-! ### The packet writer -/

/-- `WritePacket` on memory: behind what was written comes the packet of the payload as it was; other slices keep their
content unless they lie behind the writer's slice in its array. -/
theorem writePacketM_spec (grow : Growth) {m : Mem} {frame payload : Ref} (hf : WF m frame) (hp : WF m payload)
    (hb : Before frame payload) {m' : Mem} {frame' : Ref} {e : Option Err}
    (h : Memory.writePacket grow m frame payload = (m', frame', e)) :
    WF m' frame' ∧ content m' frame' = (Ipod.writePacket (content m frame) (content m payload)).1 ∧
    e = (Ipod.writePacket (content m frame) (content m payload)).2 ∧ (frame.arr < m.length → frame.off = 0 → frame'.arr < m'.length ∧ frame'.off = 0) ∧
    ∀ r, WF m r → Before frame r → WF m' r ∧ content m' r = content m r ∧ Before frame' r := by
  have hpl := content_length hp
  rw [Memory.writePacket] at h
  rw [Ipod.writePacket]
  by_cases h0 : payload.len = 0
  · rw [if_pos h0] at h
    cases h
    rw [if_pos (by omega)]
    exact ⟨hf, rfl, rfl, fun a b => ⟨a, b⟩, fun r hr hb => ⟨hr, rfl, hb⟩⟩
  · rw [if_neg h0] at h
    rw [if_neg (by omega)]
    cases e1 : append grow m frame [packetStartByte] with
    | mk m1 f1 =>
    obtain ⟨w1, c1, l1, k1⟩ := append_spec grow hf _ e1
    simp only [e1] at h
    obtain ⟨hdr, hh, hH⟩ : ∃ hdr : Bytes, (if payload.len > largePacketMinLen then
        append grow m1 f1 [0x00, (UInt16.ofNat payload.len >>> 8).toUInt8, (UInt16.ofNat payload.len).toUInt8]
        else append grow m1 f1 [UInt8.ofNat payload.len]) = append grow m1 f1 hdr ∧
        (if (content m payload).length > largePacketMinLen then
          content m frame ++ [packetStartByte] ++ ([0x00, (UInt16.ofNat (content m payload).length >>> 8).toUInt8,
            (UInt16.ofNat (content m payload).length).toUInt8] : Bytes)
          else content m frame ++ [packetStartByte] ++ [UInt8.ofNat (content m payload).length]) =
        content m frame ++ [packetStartByte] ++ hdr := by
      rw [hpl]
      by_cases hl : payload.len > largePacketMinLen
      · exact ⟨_, by rw [if_pos hl], by rw [if_pos hl]⟩
      · exact ⟨_, by rw [if_neg hl], by rw [if_neg hl]⟩
    rw [hh] at h
    cases e2 : append grow m1 f1 hdr with
    | mk m2 f2 =>
    obtain ⟨w2, c2, l2, k2⟩ := append_spec grow w1 _ e2
    simp only [e2] at h
    cases e3 : append grow m2 f2 (content m2 payload) with
    | mk m3 f3 =>
    obtain ⟨w3, c3, l3, k3⟩ := append_spec grow w2 _ e3
    simp only [e3] at h
    cases e4 : append grow m3 f3 [checksum ((content m3 f3).drop f1.len)] with
    | mk m4 f4 =>
    obtain ⟨w4, c4, l4, k4⟩ := append_spec grow w3 _ e4
    simp only [e4] at h
    cases h
    obtain ⟨p1, p2, p3⟩ := k1 payload hp hb
    obtain ⟨q1, q2, q3⟩ := k2 payload p1 p3
    have hf1 : f1.len = (content m frame ++ [packetStartByte]).length := by rw [← c1, content_length w1]
    refine ⟨w4, ?_, rfl, fun hl ho => let a := l1 hl ho; let b := l2 a.1 a.2; let c := l3 b.1 b.2; l4 c.1 c.2, ?_⟩
    · simp only
      rw [hH, c4, c3, c2, c1, q2, p2, hf1]
    · intro r hr hb
      obtain ⟨a1, a2, a3⟩ := k1 r hr hb
      obtain ⟨b1, b2, b3⟩ := k2 r a1 a3
      obtain ⟨d1, d2, d3⟩ := k3 r b1 b3
      obtain ⟨g1, g2, g3⟩ := k4 r d1 d3
      exact ⟨g1, by rw [g2, d2, b2, a2], g3⟩

/-- What always holds of a caller and its writer. -/
structure Sound (h : Held) (v : Values) : Prop where
  frame : WF h.mem h.frame
  inside : h.frame.arr < h.mem.length
  first : h.frame.off = 0
  shows : content h.mem h.frame = v.frame
  slices : ∀ s ∈ h.slices, WF h.mem s ∧ Before h.frame s
  show_all : h.slices.map (content h.mem) = v.slices

theorem wf_nil (m : Mem) : WF m nilRef := ⟨Nat.le_refl _, by simp [nilRef]⟩

theorem held_getD {h : Held} {v : Values} (hs : Sound h v) (i : Nat) :
    WF h.mem (h.slices.getD i nilRef) ∧ Before h.frame (h.slices.getD i nilRef) ∧
      content h.mem (h.slices.getD i nilRef) = v.slices.getD i [] := by
  rw [← hs.show_all]
  rcases Nat.lt_or_ge i h.slices.length with hi | hi
  · have hm : h.slices.getD i nilRef ∈ h.slices := by
      rw [List.getD_eq_getElem?_getD, List.getElem?_eq_getElem hi]; exact List.getElem_mem hi
    refine ⟨(hs.slices _ hm).1, (hs.slices _ hm).2, ?_⟩
    simp [List.getD_eq_getElem?_getD, List.getElem?_eq_getElem hi]
  · have e : h.slices.getD i nilRef = nilRef := by simp [List.getD_eq_getElem?_getD, List.getElem?_eq_none hi]
    rw [e]
    refine ⟨wf_nil _, Or.inr (by simp [nilRef]), ?_⟩
    simp [content, nilRef, List.getD_eq_getElem?_getD, List.getElem?_eq_none hi]

theorem sound_step (grow : Growth) {h : Held} {v : Values} (hs : Sound h v) (s : Step) :
    Sound (h.step grow s).1 (v.step s) ∧
      (h.step grow s).2 = if v.refuses s = true then some Err.emptyPacket else none := by
  cases s with
  | make b =>
    refine ⟨⟨mem_extend_wf hs.frame, ?_, hs.first, ?_, ?_, ?_⟩, rfl⟩
    · have := hs.inside
      simp only [Held.step, List.length_append, List.length_singleton]; omega
    · exact (mem_extend_content hs.frame).trans hs.shows
    · intro s hm
      rcases List.mem_append.1 hm with hm | hm
      · exact ⟨mem_extend_wf (hs.slices s hm).1, (hs.slices s hm).2⟩
      · cases List.mem_singleton.1 hm
        refine ⟨⟨Nat.le_refl _, ?_⟩, Or.inl (Nat.ne_of_gt hs.inside)⟩
        simp [Held.step, List.getD_eq_getElem?_getD]
    · simp only [Held.step, Values.step, List.map_append, List.map_cons, List.map_nil]
      congr 1
      · rw [← hs.show_all]
        exact List.map_congr_left fun s hm => mem_extend_content (hs.slices s hm).1
      · simp [content, List.getD_eq_getElem?_getD]
  | cut i lo hi =>
    obtain ⟨a1, a2, a3⟩ := held_getD hs i
    have hl := content_length a1
    refine ⟨⟨hs.frame, hs.inside, hs.first, hs.shows, ?_, ?_⟩, rfl⟩
    · intro s hm
      rcases List.mem_append.1 hm with hm | hm
      · exact hs.slices s hm
      · cases List.mem_singleton.1 hm
        have h1 := a1.1
        have h2 := a1.2
        refine ⟨⟨?_, ?_⟩, ?_⟩
        · simp only; omega
        · simp only [Held.step]; omega
        · rcases a2 with a2 | a2
          · exact Or.inl a2
          · exact Or.inr (by simp only [Held.step]; omega)
    · simp only [Held.step, Values.step, List.map_append, List.map_cons, List.map_nil, hs.show_all]
      rw [← a3]
      generalize h.slices.getD i nilRef = s at a1 a2 a3 hl
      congr 2
      simp only [content] at hl ⊢
      generalize h.mem.getD s.arr [] = A at hl
      apply List.ext_getElem?
      intro j
      simp only [List.getElem?_take, List.getElem?_drop]
      by_cases hj : lo + j < hi ∧ lo + j < s.len
      · rw [if_pos (by omega), if_pos hj.1, if_pos hj.2]
        congr 1; omega
      · rw [if_neg (by omega)]
        split
        · rw [if_neg (by omega)]
        · rfl
  | write i =>
    obtain ⟨a1, a2, a3⟩ := held_getD hs i
    cases e1 : Memory.writePacket grow h.mem h.frame (h.slices.getD i nilRef) with
    | mk m1 x =>
    obtain ⟨f1, e⟩ := x
    obtain ⟨w, c, he, l, k⟩ := writePacketM_spec grow hs.frame a1 a2 e1
    simp only [Held.step, e1]
    have hv := C07_only_appends v.frame [v.slices.getD i []]
    refine ⟨⟨w, (l hs.inside hs.first).1, (l hs.inside hs.first).2, ?_, fun s hm => ?_, ?_⟩, ?_⟩
    · refine c.trans ?_
      rw [a3, hs.shows]
      simp only [Values.step]
      by_cases hz : v.slices.getD i [] = []
      · rw [hz]; simp [Ipod.writePacket]
      · simp only [writePackets, List.foldl_cons, List.foldl_nil] at hv
        rw [hv, List.filter_cons_of_pos (by simpa using hz)]
        simp [Ipod.newPacketWriter]
    · obtain ⟨r1, r2, r3⟩ := k s (hs.slices s hm).1 (hs.slices s hm).2
      exact ⟨r1, r3⟩
    · simp only [Values.step]
      rw [← hs.show_all]
      exact List.map_congr_left fun s hm => (k s (hs.slices s hm).1 (hs.slices s hm).2).2.1
    · rw [he, a3]
      have := C07_error_iff_empty (content h.mem h.frame) (v.slices.getD i [])
      by_cases hz : v.slices.getD i [] = []
      · rw [if_pos (by simpa [Values.refuses] using hz), hz]; rfl
      · rw [if_neg (by simpa [Values.refuses] using hz)]
        exact Classical.byContradiction fun hc => hz (this.1.1 hc)
  | bytes =>
    refine ⟨⟨hs.frame, hs.inside, hs.first, hs.shows, fun s hm => ?_, ?_⟩, rfl⟩
    · rcases List.mem_append.1 hm with hm | hm
      · exact hs.slices s hm
      · cases List.mem_singleton.1 hm
        exact ⟨hs.frame, Or.inr (Nat.le_refl _)⟩
    · simp only [Held.step, Values.step, List.map_append, List.map_cons, List.map_nil, hs.show_all, hs.shows]

theorem sound_run (grow : Growth) (ss : List Step) : ∀ {h : Held} {v : Values}, Sound h v →
    Sound (h.run grow ss).1 (v.run ss) ∧
      (h.run grow ss).2 = (v.refused ss).map fun b => if b = true then some Err.emptyPacket else none := by
  induction ss with
  | nil => exact fun hs => ⟨hs, rfl⟩
  | cons s ss ih =>
    intro h v hs
    obtain ⟨a, b⟩ := sound_step grow hs s
    obtain ⟨c, d⟩ := ih a
    refine ⟨c, ?_⟩
    simp only [Held.run, Values.refused, List.map_cons]
    rw [d, b]

theorem sound_start : Sound Held.start ⟨[], []⟩ :=
  ⟨⟨by decide +kernel, by decide +kernel⟩, by decide +kernel, rfl, by decide +kernel, by simp [Held.start], rfl⟩

/-- C108, the packet writer: a caller who makes byte slices, cuts them, writes any of them as packets (what `Bytes`
returned, or parts of it, among them) and asks for `Bytes` as often as it likes, sees exactly what it would see if every slice
were a value of its own. In particular no slice it holds ever changes. -/
theorem C108_writer_partial (grow : Growth) (ss : List Step) :
    let x := Held.start.run grow ss
    x.1.slices.map (content x.1.mem) = (Values.run ⟨[], []⟩ ss).slices ∧
    content x.1.mem x.1.frame = (Values.run ⟨[], []⟩ ss).frame ∧
    x.2 = (Values.refused ⟨[], []⟩ ss).map fun b => if b = true then some Err.emptyPacket else none :=
  let r := sound_run grow ss sound_start
  ⟨r.1.show_all, r.1.shows, r.2⟩

example : let x := Held.start.run (fun _ n => n) [.make [7], .write 0, .bytes, .cut 1 1 3, .write 2, .write 5]
    (x.1.slices.map (content x.1.mem), content x.1.mem x.1.frame, x.2) =
      ([[7], [0x55, 1, 7, 0xF8], [1, 7]], [0x55, 1, 7, 0xF8, 0x55, 2, 1, 7, 0xF6],
        [none, none, none, none, none, some Err.emptyPacket]) := by decide +kernel

/-- C108: nothing a caller holds changes through what it does with the writer later. -/
theorem C108_kept (grow : Growth) (ss more : List Step) (i : Nat) (s : Ref)
    (hs : (Held.start.run grow ss).1.slices[i]? = some s) :
    let x := Held.start.run grow ss
    let y := Held.start.run grow (ss ++ more)
    y.1.slices[i]? = some s ∧ content y.1.mem s = content x.1.mem s := by
  have hrun : ∀ (ss : List Step) (h : Held), (h.run grow (ss ++ more)).1 = ((h.run grow ss).1.run grow more).1 := by
    intro ss
    induction ss with
    | nil => intro h; rfl
    | cons a ss ih => intro h; exact ih _
  have hx := (sound_run grow ss sound_start).1
  simp only [hrun]
  generalize (Held.start.run grow ss).1 = h at hs hx
  generalize Values.run ⟨[], []⟩ ss = v at hx
  have key : ∀ (more : List Step) (h : Held) (v : Values), Sound h v → h.slices[i]? = some s →
      (h.run grow more).1.slices[i]? = some s ∧ content (h.run grow more).1.mem s = content h.mem s := by
    intro more
    induction more with
    | nil => intro h v _ hs; exact ⟨hs, rfl⟩
    | cons a more ih =>
      intro h v hv hs
      have hstep := (sound_step grow hv a).1
      have hpre : (h.step grow a).1.slices[i]? = some s := by
        have hi : i < h.slices.length := by
          rcases Nat.lt_or_ge i h.slices.length with hi | hi
          · exact hi
          · rw [List.getElem?_eq_none hi] at hs; cases hs
        cases a <;> simp only [Held.step] <;> first | exact hs | (rw [List.getElem?_append_left hi]; exact hs)
      obtain ⟨c1, c2⟩ := ih _ _ hstep hpre
      refine ⟨c1, c2.trans ?_⟩
      have e1 : some (content (h.step grow a).1.mem s) = (v.step a).slices[i]? := by
        rw [← hstep.show_all, List.getElem?_map, hpre]; rfl
      have e2 : some (content h.mem s) = v.slices[i]? := by rw [← hv.show_all, List.getElem?_map, hs]; rfl
      have e3 : (v.step a).slices[i]? = v.slices[i]? := by
        have hi : i < v.slices.length := by
          rcases Nat.lt_or_ge i v.slices.length with hi | hi
          · exact hi
          · rw [List.getElem?_eq_none hi] at e2; cases e2
        cases a <;> simp only [Values.step] <;> first | rfl | rw [List.getElem?_append_left hi]
      exact Option.some.inj (e1.trans (e3.trans e2.symm))
  exact key more h v hx hs

example (s : Ref) (grow : Growth) (a b c : Step) (h : (Held.start.run grow [a, b]).1.slices[0]? = some s) :
    (Held.start.run grow [a, b, c]).1.slices[0]? = some s :=
  (C108_kept grow [a, b] [c] 0 s h).1

/-! ### What a caller does to slices that are shared -/

/-- Storing over a slice from before it (or its beginning) on. -/
theorem mem_store_over {m : Mem} {r : Ref} {off : Nat} {p : Bytes} (hr : WF m r) (hl : r.arr < m.length)
    (h : off + p.length ≤ (m.getD r.arr []).length) :
    content (store m r.arr off p) r =
      (content m r).take (off - r.off) ++ over (p.drop (r.off - off)) ((content m r).drop (off - r.off)) := by
  have hlen := content_length hr
  have h2 := hr.2
  have h1 := hr.1
  simp only [content, over] at hlen ⊢
  rw [mem_store_getD, if_pos ⟨rfl, hl⟩]
  generalize m.getD r.arr [] = A at *
  apply List.ext_getElem?
  intro i
  simp only [List.getElem?_take, List.getElem?_drop, List.getElem?_append, List.length_append, List.length_take,
    List.length_drop]
  by_cases hi : i < r.len
  · rw [if_pos hi]
    by_cases c1 : r.off + i < off
    · rw [if_pos (by omega), if_pos (by omega), if_pos (by omega), if_pos (by omega), if_pos (by omega), if_pos hi]
    · by_cases c2 : r.off + i < off + p.length
      · rw [if_pos (by omega), if_neg (by omega), if_neg (by omega), if_pos (by omega), if_pos (by omega)]
        congr 1; omega
      · rw [if_neg (by omega), if_neg (by omega), if_neg (by omega), if_pos (by omega)]
        congr 1; omega
  · rw [if_neg hi]
    rw [if_neg (by omega)]
    split
    · rw [if_neg (by omega)]
    · rw [if_neg (by omega)]

theorem wf_inside {m : Mem} {r : Ref} (h : WF m r) (hc : 0 < r.cap) : r.arr < m.length := by
  rcases Nat.lt_or_ge r.arr m.length with hl | hl
  · exact hl
  · have := h.2
    rw [List.getD_eq_getElem?_getD, List.getElem?_eq_none hl] at this
    simp only [Option.getD_none, List.length_nil] at this; omega

/-- C108: what appending to a slice the caller holds does to the bytes in the writer. If the slice is (a part of) what `Bytes`
returned, the writer has not moved to another array since, and the capacity suffices, the bytes appended replace what was
written behind that slice; otherwise the writer is not affected. -/
theorem C108_append_bytes (grow : Growth) (ss : List Step) (s : Ref) (xs : Bytes)
    (hs : s ∈ (Held.start.run grow ss).1.slices) :
    let h := (Held.start.run grow ss).1
    content (append grow h.mem s xs).1 h.frame =
      if s.arr = h.frame.arr ∧ s.len + xs.length ≤ s.cap then
        (content h.mem h.frame).take (s.off + s.len) ++ over xs ((content h.mem h.frame).drop (s.off + s.len))
      else content h.mem h.frame := by
  have hx := (sound_run grow ss sound_start).1
  simp only
  generalize (Held.start.run grow ss).1 = h at hs hx
  obtain ⟨w, b⟩ := hx.slices s hs
  rw [append]
  by_cases hc : s.len + xs.length ≤ s.cap
  · rw [if_pos hc]
    have hfit : s.off + s.len + xs.length ≤ (h.mem.getD s.arr []).length := by have := w.2; omega
    by_cases ha : s.arr = h.frame.arr
    · rw [if_pos ⟨ha, hc⟩]
      simp only
      rw [ha] at hfit ⊢
      rw [mem_store_over hx.frame hx.inside hfit, hx.first]
      simp
    · rw [if_neg (fun hh => ha hh.1)]
      exact mem_store_content hfit (Or.inl (fun hh => ha hh.symm))
  · rw [if_neg hc, if_neg (fun hh => hc hh.2)]
    exact mem_extend_content hx.frame

/-- Bytes appended to what `Bytes` returned, after the writer has gone on. -/
example (xs : Bytes) := C108_append_bytes (fun _ n => n) [.make [7], .write 0, .bytes, .write 0] ⟨0, 0, 4, 512⟩ xs (by decide +kernel)

/-! ### Payloads of the packet reader -/

theorem payload_place {m : Mem} {frame frame' p : Ref} (hw : WF m frame)
    (h : Alias.readPacket m frame = .ret (frame', .ok p)) :
    p.arr = frame.arr ∧ frame'.arr = p.arr ∧ frame'.off = p.off + p.len + 1 ∧ WF m p ∧ WF m frame' ∧ p.len < p.cap := by
  rw [Alias.readPacket] at h
  cases hi : indexStart (content m frame) with
  | none => rw [hi] at h; cases h
  | some next =>
    rw [hi] at h
    simp only at h
    cases e1 : frame.fromLo (next + 1) with
    | panic => rw [e1] at h; cases h
    | ret frame1 =>
      rw [e1] at h
      simp only [Out.bind_ret] at h
      cases e2 : Alias.parsePacket m frame1 with
      | panic => rw [e2] at h; cases h
      | ret r =>
        rw [e2] at h
        obtain ⟨n, r⟩ := r
        simp only [Out.bind_ret] at h
        cases r with
        | error e => cases h
        | ok payload =>
          simp only at h
          cases e3 : frame1.fromLo n with
          | panic => rw [e3] at h; cases h
          | ret frame2 =>
            rw [e3] at h
            cases h
            have w1 : WF m frame1 := by
              rw [Ref.fromLo] at e1
              split at e1
              · cases e1
                have := hw.1; have := hw.2
                exact ⟨by simp only; omega, by simp only; omega⟩
              · cases e1
            rw [Alias.parsePacket] at e2
            cases e4 : parseHeader (content m frame1) with
            | error e => rw [e4] at e2; cases e2
            | ok pr =>
              obtain ⟨payOff, payLen⟩ := pr
              rw [e4] at e2
              simp only [Ref.upTo] at e2
              split at e2
              · rename_i hcap
                simp only [Out.bind_ret] at e2
                split at e2
                · cases e2
                · split at e2
                  · cases e2
                  · simp only [Ref.range] at e2
                    split at e2
                    · simp only [Out.bind_ret] at e2
                      cases e2
                      rw [Ref.fromLo] at e1 e3
                      split at e1
                      · split at e3
                        · cases e1
                          cases e3
                          have := w1.1; have := w1.2
                          refine ⟨rfl, rfl, ?_, ⟨?_, ?_⟩, ⟨?_, ?_⟩, ?_⟩ <;> simp only at * <;> omega
                        · cases e3
                      · cases e1
                    · cases e2
              · cases e2

/-- C108: a caller may change the bytes of a payload it was given; the packets still to be read stay what they were (of
the frame the reader sees what is left of it and the memory behind). -/
theorem C108_store_payload {m : Mem} {frame frame' p : Ref} (hw : WF m frame)
    (h : Alias.readPacket m frame = .ret (frame', .ok p)) (i : Nat) (q : Bytes) (hq : i + q.length ≤ p.len) :
    view (store m p.arr (p.off + i) q) frame' = view m frame' := by
  obtain ⟨_, ha, ho, wp, wf, _⟩ := payload_place hw h
  have hfit : p.off + i + q.length ≤ (m.getD p.arr []).length := by have := wp.1; have := wp.2; omega
  have h1 : content (store m p.arr (p.off + i) q) frame' = content m frame' :=
    mem_store_content hfit (Or.inr (Or.inr (by omega)))
  have h2 := mem_store_content hfit (r := ⟨frame'.arr, frame'.off + frame'.len, frame'.cap - frame'.len, 0⟩)
    (Or.inr (Or.inr (by simp only; omega)))
  simp only [view, h1]
  simp only [content] at h2
  rw [h2]

/-- A payload of two bytes, the second of which is changed. -/
example : view (store [[0x55, 2, 7, 8, 0xEF, 0x55]] 0 (2 + 1) [5]) ⟨0, 5, 1, 1⟩ = view [[0x55, 2, 7, 8, 0xEF, 0x55]] ⟨0, 5, 1, 1⟩ :=
  C108_store_payload (m := [[0x55, 2, 7, 8, 0xEF, 0x55]]) (frame := ⟨0, 0, 6, 6⟩) (frame' := ⟨0, 5, 1, 1⟩) (p := ⟨0, 2, 2, 4⟩)
    ⟨by decide, by decide⟩ (by decide +kernel) 1 [5] (by decide)

/-- C108: appending to a payload. If the array behind it is large enough the first byte appended takes the place of the
checksum, the others replace the beginning of what is still to be read; otherwise nothing is affected. -/
theorem C108_append_payload (grow : Growth) {m : Mem} {frame frame' p : Ref} (hw : WF m frame)
    (h : Alias.readPacket m frame = .ret (frame', .ok p)) (xs : Bytes) :
    content (append grow m p xs).1 frame' =
      if p.len + xs.length ≤ p.cap then over (xs.drop 1) (content m frame') else content m frame' := by
  obtain ⟨_, ha, ho, wp, wf, hlt⟩ := payload_place hw h
  rw [append]
  by_cases hc : p.len + xs.length ≤ p.cap
  · rw [if_pos hc, if_pos hc]
    have hfit : p.off + p.len + xs.length ≤ (m.getD p.arr []).length := by have := wp.2; omega
    simp only
    have hin : frame'.arr < m.length := by rw [ha]; exact wf_inside wp (by omega)
    rw [← ha] at hfit ⊢
    rw [mem_store_over wf hin hfit, ho, show p.off + p.len - (p.off + p.len + 1) = 0 by omega,
      show p.off + p.len + 1 - (p.off + p.len) = 1 by omega]
    simp
  · rw [if_neg hc, if_neg hc]
    exact mem_extend_content wf

/-- Two bytes appended to a payload of two: the frame behind it changes. -/
example (grow : Growth) := C108_append_payload grow (m := [[0x55, 2, 7, 8, 0xEF, 0x55]]) (frame := ⟨0, 0, 6, 6⟩) (frame' := ⟨0, 5, 1, 1⟩)
  (p := ⟨0, 2, 2, 4⟩) ⟨by decide, by decide⟩ (by decide +kernel) [5, 6]

/-! ### Reports -/

/-- C108: a report just read is the one the bytes in the reader's buffer make. -/
theorem C108_report_read {m : Mem} {arr : Nat} (hm : (m.getD arr []).length = 1024) (r : Fill) (hr : FillOK r) :
    let x := rawReadReport m arr r
    (x.1.getD arr []).length = 1024 ∧
    (match x.2 with | .error e => Except.error e | .ok y => .ok (y.now x.1)) = Hid.rawReadReport (readOf r) := by
  obtain ⟨hb, hn⟩ := hr
  have hin : arr < m.length := by
    rcases Nat.lt_or_ge arr m.length with hl | hl
    · exact hl
    · rw [List.getD_eq_getElem?_getD, List.getElem?_eq_none hl] at hm; simp at hm
  have hst : (store m arr 0 r.buf).getD arr [] = r.buf := by
    rw [mem_store_getD, if_pos ⟨rfl, hin⟩]
    simp only [List.take_zero, List.nil_append, Nat.zero_add]
    rw [List.drop_of_length_le (by omega), List.append_nil]
  simp only [Memory.rawReadReport, Hid.rawReadReport, readOf]
  cases r.err with
  | some e => exact ⟨by rw [hst]; exact hb, rfl⟩
  | none =>
    simp only
    by_cases h3 : r.n < 3
    · rw [if_pos h3]
      refine ⟨by rw [hst]; exact hb, ?_⟩
      simp only
      split
      · rename_i hh
        have := congrArg List.length hh
        simp only [List.length_take, List.length_cons] at this; omega
      · rfl
    · rw [if_neg h3]
      refine ⟨by simp only; rw [hst]; exact hb, ?_⟩
      simp only [Report.now, content, hst]
      generalize r.buf = buf at *
      match buf, hb with
      | b0 :: b1 :: b2 :: rest, hb =>
        obtain ⟨k, hk⟩ : ∃ k, r.n = k + 3 := ⟨r.n - 3, by omega⟩
        simp only [List.length_cons] at hb
        simp [hk, Hid.maxRawSize]
        exact (List.take_of_length_le (by simp; omega)).symm

/-- A report with two bytes of data. -/
example := C108_report_read (m := [List.replicate 1024 0]) (arr := 0) (by decide +kernel) ⟨[1, 0, 7, 8] ++ List.replicate 1020 0, 4, none⟩
  ⟨by decide +kernel, by decide⟩

theorem reads_place (arr : Nat) : ∀ (fills : List Fill) (m : Mem) (i : Nat) (r : Memory.Report) (f : Fill),
    (rawReadReports m arr fills).2[i]? = some (.ok r) → fills[i]? = some f →
    r.data = ⟨arr, 2, f.n - 2, 1022⟩ ∧ 3 ≤ f.n := by
  intro fills
  induction fills with
  | nil => intro m i r f h1 h2; simp at h2
  | cons g fills ih =>
    intro m i r f h1 h2
    cases i with
    | zero =>
      simp only [List.getElem?_cons_zero, Option.some.injEq] at h2
      subst h2
      simp only [rawReadReports, List.getElem?_cons_zero, Option.some.injEq, Memory.rawReadReport] at h1
      split at h1
      · cases h1
      · split at h1
        · cases h1
        · rename_i hn
          cases h1
          exact ⟨rfl, by omega⟩
    | succ i =>
      simp only [List.getElem?_cons_succ, rawReadReports] at h1 h2
      exact ih _ i r f h1 h2

theorem reads_memory (arr : Nat) (last : Fill) (hl : FillOK last) : ∀ (fills : List Fill) (m : Mem),
    (m.getD arr []).length = 1024 → (∀ f ∈ fills, FillOK f) →
    (rawReadReports m arr (fills ++ [last])).1.getD arr [] = last.buf := by
  intro fills
  have one : ∀ (m : Mem) (f : Fill), FillOK f → (m.getD arr []).length = 1024 →
      (Memory.rawReadReport m arr f).1.getD arr [] = f.buf := by
    intro m f hf hm
    have hin : arr < m.length := by
      rcases Nat.lt_or_ge arr m.length with hl | hl
      · exact hl
      · rw [List.getD_eq_getElem?_getD, List.getElem?_eq_none hl] at hm; simp at hm
    have hst : (store m arr 0 f.buf).getD arr [] = f.buf := by
      rw [mem_store_getD, if_pos ⟨rfl, hin⟩]
      simp only [List.take_zero, List.nil_append, Nat.zero_add]
      rw [List.drop_of_length_le (by rw [hm, hf.1]; exact Nat.le_refl _), List.append_nil]
    simp only [Memory.rawReadReport]
    split
    · exact hst
    · split
      · exact hst
      · exact hst
  induction fills with
  | nil => intro m hm _; exact one m last hl hm
  | cons f fills ih =>
    intro m hm hf
    simp only [List.cons_append, rawReadReports]
    have h1 := hf f List.mem_cons_self
    exact ih _ (by rw [one m f h1 hm]; exact h1.1) fun g hg => hf g (List.mem_cons_of_mem _ hg)

/-- C108: the data of a report kept while others are read is not the report's any more: all reports read show what the last
`Read` left in the reader's buffer, each as many bytes as it had. -/
theorem C108_reports_overwritten {m : Mem} {arr : Nat} (hm : (m.getD arr []).length = 1024) (fills : List Fill) (last : Fill)
    (hf : ∀ f ∈ fills, FillOK f) (hl : FillOK last) (i : Nat) (r : Memory.Report) (f : Fill)
    (h1 : (rawReadReports m arr (fills ++ [last])).2[i]? = some (.ok r)) (h2 : (fills ++ [last])[i]? = some f) :
    content (rawReadReports m arr (fills ++ [last])).1 r.data = (last.buf.drop 2).take (f.n - 2) := by
  obtain ⟨e, _⟩ := reads_place arr _ m i r f h1 h2
  rw [e]
  simp only [content]
  rw [reads_memory arr last hl fills m hm hf]

/-- C108: the decoder is not affected, as it takes over the data of each report before it reads the next: over the reader's
buffer in memory it yields what it yields on the reports as values. -/
theorem C108_decoder {grow : Growth} {defs : List Hid.ReportDef} {arr : Nat} (fills : List Fill) :
    ∀ (m : Mem), (m.getD arr []).length = 1024 → (∀ f ∈ fills, FillOK f) → ∀ (buf : Slice),
    (Memory.readFrameLoop grow defs arr fills m buf >>= fun x => .ret (x.1.map fun f => Hid.rawReadReport (readOf f), x.2.2)) =
      Hid.readFrameLoop grow defs (fills.map fun f => Hid.rawReadReport (readOf f)) buf := by
  induction fills with
  | nil => intro m _ _ buf; rfl
  | cons f fills ih =>
    intro m hm hf buf
    obtain ⟨h1, h2⟩ := C108_report_read hm f (hf f List.mem_cons_self)
    have ih' := ih (rawReadReport m arr f).1 h1 fun g hg => hf g (List.mem_cons_of_mem _ hg)
    rw [List.map_cons, ← h2]
    rw [Memory.readFrameLoop]
    cases hx : rawReadReport m arr f with
    | mk m1 res =>
    rw [hx] at ih' h1
    cases res with
    | error e => rfl
    | ok report =>
      have hlen : (content m1 report.data).length = report.data.len := by
        have hp := (reads_place arr [f] m 0 report f (by simp [rawReadReports, hx]) rfl)
        rw [hp.1]
        simp only [content, List.length_take, List.length_drop]
        have := (hf f List.mem_cons_self).2
        simp only at h1
        omega
      simp only [Hid.readFrameLoop, Report.now, hlen]
      cases Hid.find defs report.id.toNat with
      | none => rfl
      | some d =>
        simp only
        split
        · rfl
        · split
          · rfl
          · split
            · exact ih' _
            · split
              · exact ih' _
              · split
                · rfl
                · exact ih' _

/-- C108: reports handed to a report writer have arrays of their own. A writer that keeps them all sees, when `WriteFrame`
has returned (or failed), the reports it was given, each with the bytes it had; the frame is untouched. -/
theorem C108_encoder (defs : List Hid.ReportDef) (fails : Hid.Fails) (fuel : Nat) {m : Mem} {frame : Ref} (hf : WF m frame) :
    match Memory.writeFrameLoop defs fails frame fuel m 0 [] with
    | none => Hid.writeFrameFor fuel defs fails [] (content m frame) = none
    | some .panic => Hid.writeFrameFor fuel defs fails [] (content m frame) = some .panic
    | some (.ret (m', log, e)) =>
      Hid.writeFrameFor fuel defs fails [] (content m frame) = some (.ret (log.map (·.now m'), e)) ∧
      content m' frame = content m frame ∧ (log.map (·.data.arr)).Nodup ∧
      ∀ r ∈ log, m.length ≤ r.data.arr ∧ r.data.arr < m'.length := by
  rw [Hid.writeFrameFor, content_length hf]
  have key : ∀ (fuel : Nat) (m1 : Mem) (off : Nat) (log : List Memory.Report), WF m1 frame →
      content m1 frame = content m frame → m.length ≤ m1.length → (log.map (·.data.arr)).Nodup →
      (∀ r ∈ log, WF m1 r.data ∧ m.length ≤ r.data.arr ∧ r.data.arr < m1.length) →
      match Memory.writeFrameLoop defs fails frame fuel m1 off log with
      | none => Hid.writeFrameLoop defs fails (content m frame) fuel (log.map (·.now m1)) off (frame.len - off) = none
      | some .panic => Hid.writeFrameLoop defs fails (content m frame) fuel (log.map (·.now m1)) off (frame.len - off) = some .panic
      | some (.ret (m', log', e)) =>
        Hid.writeFrameLoop defs fails (content m frame) fuel (log.map (·.now m1)) off (frame.len - off) =
          some (.ret (log'.map (·.now m'), e)) ∧
        content m' frame = content m frame ∧ (log'.map (·.data.arr)).Nodup ∧
        ∀ r ∈ log', m.length ≤ r.data.arr ∧ r.data.arr < m'.length := by
    intro fuel
    induction fuel with
    | zero => intro m1 off log _ _ _ _ _; rfl
    | succ fuel ih =>
      intro m1 off log hw hcont hlen hnd hlog
      rw [Memory.writeFrameLoop, Hid.writeFrameLoop]
      by_cases h0 : frame.len - off = 0
      · rw [if_pos h0, if_pos h0]
        exact ⟨rfl, hcont, hnd, fun r hr => (hlog r hr).2⟩
      · rw [if_neg h0, if_neg h0]
        cases hp : Hid.pick defs ((frame.len - off : Nat) : Int) .accIn with
        | none => exact ⟨rfl, hcont, hnd, fun r hr => (hlog r hr).2⟩
        | some d =>
          simp only
          by_cases hneg : d.maxPayload < 0
          · rw [if_pos hneg, if_pos hneg]
          · rw [if_neg hneg, if_neg hneg, List.length_map]
            have hcl := content_length hf
            generalize hpl : (if frame.len - off > d.maxPayload.toNat then d.maxPayload.toNat else frame.len - off) = payloadLen
            generalize hlc : (if frame.len - off > d.maxPayload.toNat then
              if off = 0 then Hid.linkControlMoreToFollow else Hid.linkControlContinue ||| Hid.linkControlMoreToFollow
              else if off > 0 then Hid.linkControlContinue else Hid.linkControlDone) = lc
            have hple : payloadLen ≤ frame.len - off ∧ payloadLen ≤ d.maxPayload.toNat := by
              rw [← hpl]; split <;> omega
            have hpart : (((content m frame).drop off).take payloadLen).length = payloadLen := by
              rw [List.length_take, List.length_drop, hcl]; omega
            rw [hcont, hpart]
            generalize hdata : ((content m frame).drop off).take payloadLen ++
              List.replicate (d.maxPayload.toNat - payloadLen) 0 = data
            have hdl : data.length = d.maxPayload.toNat := by
              rw [← hdata, List.length_append, hpart, List.length_replicate]; omega
            have hnew : WF (m1 ++ [data]) ⟨m1.length, 0, d.maxPayload.toNat, d.maxPayload.toNat⟩ := by
              refine ⟨Nat.le_refl _, ?_⟩
              simp [List.getD_eq_getElem?_getD, hdl]
            have hnow : (log ++ [(⟨Hid.byteOfInt d.id, lc, ⟨m1.length, 0, d.maxPayload.toNat, d.maxPayload.toNat⟩⟩ : Memory.Report)]).map
                (·.now (m1 ++ [data])) = log.map (·.now m1) ++ [⟨Hid.byteOfInt d.id, lc, data⟩] := by
              rw [List.map_append]
              congr 1
              · refine List.map_congr_left fun r hr => ?_
                simp only [Report.now, mem_extend_content (hlog r hr).1]
              · simp only [List.map_cons, List.map_nil, Report.now, content]
                simp [List.getD_eq_getElem?_getD, ← hdl]
            have hnd' : ((log ++ [(⟨Hid.byteOfInt d.id, lc, ⟨m1.length, 0, d.maxPayload.toNat, d.maxPayload.toNat⟩⟩ :
                Memory.Report)]).map (·.data.arr)).Nodup := by
              rw [List.map_append, List.nodup_append]
              refine ⟨hnd, by simp, ?_⟩
              intro a ha b hb
              obtain ⟨r, hr, rfl⟩ := List.mem_map.1 ha
              simp only [List.map_cons, List.map_nil, List.mem_singleton] at hb
              have := (hlog r hr).2.2
              omega
            have hlog' : ∀ r ∈ log ++ [(⟨Hid.byteOfInt d.id, lc, ⟨m1.length, 0, d.maxPayload.toNat, d.maxPayload.toNat⟩⟩ :
                Memory.Report)], WF (m1 ++ [data]) r.data ∧ m.length ≤ r.data.arr ∧ r.data.arr < (m1 ++ [data]).length := by
              intro r hr
              rw [List.length_append, List.length_singleton]
              rcases List.mem_append.1 hr with hr | hr
              · have := hlog r hr
                exact ⟨mem_extend_wf this.1, this.2.1, by omega⟩
              · cases List.mem_singleton.1 hr
                exact ⟨hnew, hlen, by simp⟩
            cases fails log.length with
            | some e =>
              simp only
              exact ⟨by rw [hnow], (mem_extend_content hw).trans hcont, hnd', fun r hr => (hlog' r hr).2⟩
            | none =>
              simp only
              have := ih (m1 ++ [data]) (off + payloadLen) _ (mem_extend_wf hw) ((mem_extend_content hw).trans hcont)
                (by rw [List.length_append]; omega) hnd' hlog'
              rw [hnow] at this
              rw [Nat.sub_sub]
              exact this
  exact key fuel m 0 [] hf rfl (Nat.le_refl _) (by simp) (by simp)

/-- A frame of three bytes in reports of two. -/
example := C108_encoder [⟨1, 3, .accIn⟩] (fun _ => none) 3 (m := [[1, 2, 3]]) (frame := ⟨0, 0, 3, 3⟩) ⟨by decide, by decide⟩

/-- C108 is false of the code as stated: (1) appending to what `Bytes` returned destroys the packet written since; (2) and
what was appended is destroyed by the next packet; (3) appending two bytes to a payload destroys the packet behind it; (4)
a report is overwritten by the next one read. -/
theorem C108_fails :
    let grow : Growth := fun _ n => n
    (let h := (Held.start.run grow [.make [7], .write 0, .bytes, .write 0]).1
     content (append grow h.mem (h.slices.getD 1 nilRef) [9]).1 h.frame = [0x55, 1, 7, 0xF8, 9, 1, 7, 0xF8]) ∧
    (let h := (Held.start.run grow [.make [7], .write 0, .bytes]).1
     let x := append grow h.mem (h.slices.getD 1 nilRef) [9]
     content x.1 x.2 = [0x55, 1, 7, 0xF8, 9] ∧
     content (Memory.writePacket grow x.1 h.frame (h.slices.getD 0 nilRef)).1 x.2 = [0x55, 1, 7, 0xF8, 0x55]) ∧
    (let m : Mem := [[0x55, 1, 7, 0xF8, 0x55, 1, 7, 0xF8]]
     let f : Ref := ⟨0, 4, 4, 4⟩
     let p : Ref := ⟨0, 2, 1, 6⟩
     Alias.readPacket m ⟨0, 0, 8, 8⟩ = .ret (f, .ok p) ∧ content m p = [7] ∧ content m f = [0x55, 1, 7, 0xF8] ∧
       content (append grow m p [8, 9]).1 f = [9, 1, 7, 0xF8]) ∧
    (let m : Mem := [List.replicate 1024 0]
     let r : Memory.Report := ⟨1, 0, ⟨0, 2, 2, 1022⟩⟩
     let x := rawReadReport m 0 ⟨[1, 0, 7, 8] ++ List.replicate 1020 0, 4, none⟩
     x.2 = .ok r ∧ r.now x.1 = ⟨1, 0, [7, 8]⟩ ∧
       r.now (rawReadReport x.1 0 ⟨[2, 0, 9] ++ List.replicate 1021 0, 3, none⟩).1 = ⟨1, 0, [9, 0]⟩) := by
  decide +kernel

/-! ### The hypotheses can be met -/

example : let s : Ref := ⟨0, 0, 4, 512⟩
    s ∈ (Held.start.run (fun _ n => n) [.make [7], .write 0, .bytes, .write 0]).1.slices ∧
      over [9, 8] [1, 2, 3] = [9, 8, 3] ∧ over [9, 8] [1] = [9] := by decide +kernel
example : ∃ f p, Alias.readPacket [[0x55, 2, 7, 8, 0xEF, 0x55]] ⟨0, 0, 6, 6⟩ = .ret (f, .ok p) ∧
    WF [[0x55, 2, 7, 8, 0xEF, 0x55]] ⟨0, 0, 6, 6⟩ ∧ 1 + [5].length ≤ p.len :=
  ⟨⟨0, 5, 1, 1⟩, ⟨0, 2, 2, 4⟩, by decide +kernel, ⟨by decide, by decide⟩, by decide⟩
example : (([List.replicate 1024 0] : Mem).getD 0 []).length = 1024 ∧
    FillOK ⟨[1, 0, 7, 8] ++ List.replicate 1020 0, 4, none⟩ := ⟨by decide +kernel, by decide +kernel, by decide⟩
example : WF [[1, 2, 3]] ⟨0, 0, 3, 3⟩ ∧
    Memory.writeFrameLoop [⟨1, 3, .accIn⟩] (fun _ => none) ⟨0, 0, 3, 3⟩ 3 [[1, 2, 3]] 0 [] =
      some (.ret ([[1, 2, 3], [1, 2], [3, 0]],
        [⟨1, 0x02, ⟨1, 0, 2, 2⟩⟩, ⟨1, 0x01, ⟨2, 0, 2, 2⟩⟩], none)) := ⟨⟨by decide, by decide⟩, by decide +kernel⟩

end Props
