import Verif.Spec.Lossy
import Verif.Props.Order
import Verif.Props.Fewest
import Verif.Lemmas.Grouping
import Verif.Spec.Afresh

/-! # C120: packets in frames of which reports got lost -/

namespace Props
open Go Spec Ipod Ipod.Hid

/-- A frame cut into reports: one, or a first that holds four bytes or more, some in between and a last. They hold the frame and
zeros behind it, fewer than there is data in any report after the first. (Any accessory may cut frames like this, with any reports of
the table in either direction; `cut_of_written`: the encoder does.) -/
structure Cut (defs : List ReportDef) (frame : Bytes) (rs : List Report) : Prop where
  parts : ∀ r ∈ rs, Part defs r
  shape : (∃ r, rs = [r] ∧ r.linkControl = 0x00) ∨
    ∃ first mid last, rs = first :: (mid ++ [last]) ∧ first.linkControl = 0x02 ∧ (∀ r ∈ mid, r.linkControl = 0x03) ∧
      last.linkControl = 0x01 ∧ 4 ≤ first.data.length
  data : ∃ pad, dataOf rs = frame ++ pad ∧ Zeros pad ∧ ∀ r ∈ rs.tail, pad.length < r.data.length

/-- The frame was cut into reports, of which those that arrived are in order; if any arrived, the first did. -/
structure Heads (defs : List ReportDef) (t : Transfer) : Prop where
  cut : Cut defs t.frame t.sent
  order : t.got.Sublist t.sent
  first : t.got = [] ∨ t.got.head? = t.sent.head?

/-- All reports but the last are full of the largest payload, the last has no more. -/
theorem chunks_sizes {defs : List ReportDef} {d : ReportDef} (hl : LastIn defs d)
    (hm : ∀ e ∈ defs, e.dir = .accIn → e.maxPayload ≤ d.maxPayload) {first : Bool} {data : Bytes} {rs : List Report}
    (h : Chunks defs first data rs) :
    ∃ init last rest pad, rs = init ++ [last] ∧ data = dataOf init ++ rest ∧ rest ≠ [] ∧ last.data = rest ++ pad ∧ Zeros pad ∧
      (last.data.length : Int) ≤ d.maxPayload ∧ ∀ r ∈ init, (r.data.length : Int) = d.maxPayload := by
  induction h with
  | @last first rest e h1 h2 h3 =>
    have he := pick_some h1
    have := hm e he.1 he.2
    refine ⟨[], _, rest, _, rfl, by simp [dataOf], h2, rfl, fun b hb => (List.mem_replicate.1 hb).2, ?_, by simp⟩
    simp only [List.length_append, List.length_replicate]
    omega
  | @more first part rest e rs h1 h2 h3 h4 h5 ih =>
    obtain ⟨init, last, r, pad, e1, e2, e3, e4, e5, e6, e7⟩ := ih
    refine ⟨_ :: init, last, r, pad, by rw [e1]; rfl, by rw [e2, dataOf_cons, List.append_assoc], e3, e4, e5, e6, ?_⟩
    intro x hx
    rcases List.mem_cons.1 hx with rfl | hx
    · have hpos := List.length_pos_iff.2 h4
      rcases pick_fits_or_last h1 with h | ⟨h, _⟩
      · rw [List.length_append] at h; omega
      · rw [lastIn_unique h hl] at h2
        exact h2
    · exact e7 x hx

/-- The reports of the encoder, for the tables whose largest report to the host is the last. -/
theorem cut_of_written {defs : List ReportDef} (hg : GoodTable defs) {d : ReportDef} (hl : LastIn defs d)
    (hm : ∀ e ∈ defs, e.dir = .accIn → e.maxPayload ≤ d.maxPayload) (h4 : 4 ≤ d.maxPayload) {frame : Bytes} (hf : frame ≠ [])
    {rs : List Report} (hw : Written defs frame rs) : Cut defs frame rs := by
  obtain ⟨init, last, rest, pad, e1, e2, e3, e4, e5, e6, e7⟩ := chunks_sizes hl hm (written_is_chunks hg hf hw)
  have hpos := List.length_pos_iff.2 e3
  have h4' := congrArg List.length e4
  rw [List.length_append] at h4'
  refine ⟨part_of_written hg hf hw, ?_, pad, ?_, e5, ?_⟩
  · rcases written_shape hg hf hw with h | ⟨first, mid, last', h, h1, h2, h3⟩
    · exact .inl h
    · refine .inr ⟨first, mid, last', h, h1, h2, h3, ?_⟩
      rw [h, ← List.cons_append] at e1
      obtain ⟨rfl, -⟩ := List.append_inj' e1 rfl
      have := e7 first (.head _)
      omega
  · rw [e1, e2, dataOf_append, List.append_assoc, ← e4]
    simp [dataOf]
  · intro r hr
    have hr : r ∈ init ++ [last] := by rw [← e1]; exact List.mem_of_mem_tail hr
    rcases List.mem_append.1 hr with hr | hr
    · have := e7 r hr; omega
    · rw [List.mem_singleton.1 hr]; omega

/-- C120, what the frames are cut into: by the encoder with either shipped table, reports as the other theorems take them. -/
theorem C120_cut (frame : Bytes) (hf : frame ≠ []) (rs : List Report) :
    (Written defaultReportDefs frame rs → Cut defaultReportDefs frame rs) ∧
    (Written legacyReportDefs frame rs → Cut legacyReportDefs frame rs) :=
  ⟨cut_of_written goodTable_default default_last (by decide) (by decide) hf,
    cut_of_written goodTable_legacy legacy_last (by decide) (by decide) hf⟩

/-- Where a report is missing there is less data, by more than a report has. -/
theorem less_data {a b : List Report} (h : a.Sublist b) {n : Nat} (hn : ∀ r ∈ b, n < r.data.length) :
    a = b ∨ (dataOf a).length + n < (dataOf b).length := by
  induction h with
  | slnil => exact .inl rfl
  | @cons a b r h ih =>
    refine .inr ?_
    have := hn r (.head _)
    rw [dataOf_cons, List.length_append]
    rcases ih fun r hr => hn r (.tail _ hr) with rfl | h <;> omega
  | @cons_cons a b r h ih =>
    rcases ih fun r hr => hn r (.tail _ hr) with rfl | h
    · exact .inl rfl
    · refine .inr ?_
      rw [dataOf_cons, dataOf_cons, List.length_append, List.length_append]
      omega

theorem sub_one {l : List Report} {r : Report} (h : l.Sublist [r]) : l = [] ∨ l = [r] := by
  cases h with
  | cons _ h => exact .inl (List.sublist_nil.1 h)
  | cons_cons _ h => exact .inr (by rw [List.sublist_nil.1 h])

/-- What arrives of a frame whose first report is not lost: nothing, all of a single report, or the first of several, some of
those in between and perhaps the last. -/
theorem heads_shape {defs : List ReportDef} {t : Transfer} (h : Heads defs t) :
    t.got = [] ∨ (∃ r, t.sent = [r] ∧ t.got = [r] ∧ r.linkControl = 0x00) ∨
    ∃ first mid last mid' tl, t.sent = first :: (mid ++ [last]) ∧ t.got = first :: (mid' ++ tl) ∧ mid'.Sublist mid ∧
      (tl = [] ∨ tl = [last]) ∧ first.linkControl = 0x02 ∧ (∀ r ∈ mid, r.linkControl = 0x03) ∧ last.linkControl = 0x01 ∧
      4 ≤ first.data.length := by
  obtain ⟨hc, ho, hh⟩ := h
  rcases hh with hh | hh
  · exact .inl hh
  rcases hc.shape with ⟨r, e, h0⟩ | ⟨first, mid, last, e, h1, h2, h3, h4⟩
  · rw [e] at hh ho
    rcases sub_one ho with h | h
    · exact .inl h
    · exact .inr (.inl ⟨r, e, h, h0⟩)
  · rw [e] at hh ho
    rcases hgot : t.got with _ | ⟨x, g⟩
    · exact .inl rfl
    · rw [hgot] at hh ho
      obtain rfl : x = first := by simpa using hh
      obtain ⟨a, b, rfl, ha, hb⟩ := List.sublist_append_iff.1 (List.cons_sublist_cons.1 ho)
      exact .inr (.inr ⟨x, mid, last, a, b, e, rfl, ha, sub_one hb, h1, h2, h3, h4⟩)

/-- The end of a frame that arrived whole arrived. -/
theorem whole_ended {defs : List ReportDef} {t : Transfer} (h : Heads defs t) (hc : t.Complete) : ∃ r ∈ t.got, Ends r := by
  rw [show t.got = t.sent from hc]
  rcases h.cut.shape with ⟨r, e, h0⟩ | ⟨first, mid, last, e, h1, h2, h3, _⟩
  · exact ⟨r, by rw [e]; simp, .inl h0⟩
  · exact ⟨last, by rw [e]; simp, .inr h3⟩

theorem ended_iff {t : Transfer} : t.ended = true ↔ ∃ r ∈ t.got, Ends r := by
  simp [Transfer.ended]

/-- Whatever is pending, such a frame gives what arrived of it if its end did, and otherwise nothing. -/
theorem heads_gathered {defs : List ReportDef} {t : Transfer} (h : Heads defs t) (p : Bytes)
    (rest : List Report) : ∃ p', gathered p (t.got ++ rest) =
      if t.ended then dataOf t.got :: gathered [] rest else gathered p' rest := by
  rcases heads_shape h with h | ⟨r, _, h, h0⟩ | ⟨first, mid, last, mid', tl, _, h, hs, ht, h1, h2, h3, _⟩
  · refine ⟨p, ?_⟩
    rw [if_neg (by rw [ended_iff, h]; simp), h]; rfl
  · refine ⟨[], ?_⟩
    rw [if_pos (by rw [ended_iff, h]; exact ⟨r, by simp, .inl h0⟩), h]
    rw [List.singleton_append, gathered_end (.inl h0), if_pos h0]
    simp [dataOf]
  · have hne : ∀ r ∈ first :: mid', ¬ Ends r := by
      intro r hr
      rcases List.mem_cons.1 hr with rfl | hr
      · unfold Ends; rw [h1]; decide
      · unfold Ends; rw [h2 r (hs.subset hr)]; decide
    have hheld := held_starts p [] h1 mid' (fun r hr => by rw [h2 r (hs.subset hr)]; decide)
    rw [List.nil_append] at hheld
    rcases ht with rfl | rfl
    · refine ⟨first.data ++ dataOf mid', ?_⟩
      rw [if_neg (by
        rw [ended_iff, h, List.append_nil]; rintro ⟨r, hr, he⟩; exact hne r hr he), h, List.append_nil, gathered_run _ _ hne, hheld]
    · refine ⟨[], ?_⟩
      rw [if_pos (by rw [ended_iff, h]; exact ⟨last, by simp, .inr h3⟩), h, ← List.cons_append, List.append_assoc,
        gathered_run _ _ hne, hheld, List.singleton_append, gathered_end (.inr h3), if_neg (by rw [h3]; decide)]
      rw [dataOf_append, dataOf_cons]
      simp [dataOf]

theorem heads_all {defs : List ReportDef} (ts : List Transfer) (h : ∀ t ∈ ts, Heads defs t) (p : Bytes) :
    gathered p (ts.flatMap (·.got)) = (ts.filter (·.ended)).map fun t => dataOf t.got := by
  induction ts generalizing p with
  | nil => rfl
  | cons t ts ih =>
    have ih := ih fun t ht => h t (.tail _ ht)
    obtain ⟨p', hp⟩ := heads_gathered (h t (.head _)) p (ts.flatMap (·.got))
    rw [List.flatMap_cons, hp]
    by_cases he : t.ended = true
    · rw [if_pos he, ih, List.filter_cons_of_pos he, List.map_cons]
    · rw [if_neg he, ih, List.filter_cons_of_neg he]

/-- C120, frames: if of every frame the first report arrives or none, then exactly those frames are delivered of which the last
report arrives, each as what arrived of it. -/
theorem C120_frames (grow : Growth) (defs : List ReportDef) (hg : GoodTable defs) (ts : List Transfer)
    (h : ∀ t ∈ ts, Heads defs t) (buf : Slice) (k : Nat) :
    readFrames grow defs ((ts.filter (·.ended)).length + k) (arrived ts) buf =
      .ret ((ts.filter (·.ended)).map (fun t => .ok (dataOf t.got)) ++ List.replicate k (.error .eof)) := by
  have hparts : ∀ r ∈ ts.flatMap (·.got), Part defs r := by
    intro r hr
    obtain ⟨t, ht, hr⟩ := List.mem_flatMap.1 hr
    exact (h t ht).cut.parts r ((h t ht).order.subset hr)
  have hall := heads_all ts h []
  have := arriving_parts grow defs hg _ hparts buf k
  rw [hall, List.length_map, List.map_map] at this
  have ha : arrived ts = (ts.flatMap (·.got)).map .ok := by
    unfold arrived
    rw [List.map_flatMap]
  rw [ha, this]
  rfl

/-- The frame of a packet which lost reports is too short for it. -/
theorem too_short {defs : List ReportDef} {t : Transfer} (h : Heads defs t) {p : Bytes} (hp : t.Packet p) (he : t.ended = true)
    (hc : ¬ t.Complete) :
    ∃ hdr body, dataOf t.got = 0x55 :: (hdr ++ body) ∧ LenHeader p.length hdr ∧ 3 ≤ (hdr ++ body).length ∧
      body.length < p.length + 1 ∧ Filler (hdr ++ body) := by
  obtain ⟨hip, hfil⟩ := hp
  obtain ⟨hdr, ck, hh, hframe, hsum⟩ := hip
  obtain ⟨pad, e2, e5, e6⟩ := h.cut.data
  rcases heads_shape h with hgot | ⟨r, hs, hgot, h0⟩ | ⟨first, mid, last, mid', tl, hs, hgot, hsub, ht, h1, h2, h3, h4⟩
  · rw [ended_iff, hgot] at he
    simp at he
  · exact absurd (by unfold Transfer.Complete; rw [hs, hgot]) hc
  · have htl : tl = [last] := by
      rcases ht with rfl | ht
      · obtain ⟨r, hr, he⟩ := ended_iff.1 he
        rw [hgot, List.append_nil] at hr
        rcases List.mem_cons.1 hr with rfl | hr
        · unfold Ends at he; rw [h1] at he; exact absurd he (by decide)
        · unfold Ends at he; rw [h2 r (hsub.subset hr)] at he; exact absurd he (by decide)
      · exact ht
    subst htl
    rw [hs, List.tail_cons] at e6
    have hlen : (dataOf mid').length + pad.length < (dataOf mid).length := by
      rcases less_data hsub (n := pad.length) fun r hr => e6 r (by simp [hr]) with rfl | h
      · exact absurd (by unfold Transfer.Complete; rw [hs, hgot]) hc
      · exact h
    have hpl := e6 last (by simp)
    rw [hs, dataOf_cons, dataOf_append, show dataOf [last] = last.data by simp [dataOf], ← List.append_assoc] at e2
    obtain ⟨rest, hlast, e2⟩ : ∃ rest, last.data = rest ++ pad ∧ t.frame = first.data ++ dataOf mid ++ rest := by
      rcases List.append_eq_append_iff.1 e2 with ⟨a, ha, hb⟩ | ⟨a, ha, hb⟩
      · exact ⟨a, hb, ha⟩
      · have := congrArg List.length hb
        rw [List.length_append] at this
        omega
    have hhl : hdr.length ≤ 3 := by
      rcases hh with ⟨b, hb, hn, rfl⟩ | ⟨hi, lo, hn, rfl⟩ <;> simp
    rw [hframe, List.append_assoc] at e2
    have hx : ∃ x, first.data = 0x55 :: (hdr ++ x) := by
      have e8 : (0x55 :: hdr) ++ (p ++ [ck]) = first.data ++ (dataOf mid ++ rest) := by
        rw [← List.append_assoc first.data, ← e2]; simp
      rcases List.append_eq_append_iff.1 e8 with ⟨a, ha, hb⟩ | ⟨a, ha, hb⟩
      · exact ⟨a, by rw [ha]; rfl⟩
      · have := congrArg List.length ha
        simp only [List.length_cons, List.length_append] at this
        have : a = [] := List.length_eq_zero_iff.1 (by omega)
        subst this
        exact ⟨[], by rw [List.append_nil] at ha; rw [← ha]; simp⟩
    obtain ⟨x, hx⟩ := hx
    have hdata : dataOf t.got = 0x55 :: (hdr ++ (x ++ dataOf mid' ++ last.data)) := by
      rw [hgot, dataOf_cons, dataOf_append, hx]
      simp [dataOf]
    have hxl := congrArg List.length hx
    have hll := congrArg List.length hlast
    simp only [List.length_cons, List.length_append] at hxl hll
    have hflen := congrArg List.length e2
    simp only [List.length_cons, List.length_append, List.length_nil] at hflen
    refine ⟨hdr, _, hdata, hh, ?_, ?_, ?_⟩
    · simp only [List.length_append]; omega
    · simp only [List.length_append]; omega
    · rw [hframe, List.append_assoc, e2, hx] at hfil
      intro hmem
      simp only [Filler, List.cons_append, List.tail_cons, List.mem_append, not_or] at hfil
      simp only [List.mem_append] at hmem
      rcases hmem with hmem | (hmem | hmem) | hmem
      · exact hfil.1.1.1 hmem
      · exact hfil.1.1.2 hmem
      · refine hfil.1.2 ?_
        unfold dataOf at hmem ⊢
        obtain ⟨l, hl1, hl2⟩ := List.mem_flatten.1 hmem
        obtain ⟨r, hr, rfl⟩ := List.mem_map.1 hl1
        exact List.mem_flatten.2 ⟨_, List.mem_map.2 ⟨r, hsub.subset hr, rfl⟩, hl2⟩
      · rw [hlast, List.mem_append] at hmem
        rcases hmem with hmem | hmem
        · exact hfil.2 hmem
        · exact absurd (e5 _ hmem) (by decide)

/-- A frame that ends before the packet it begins with. -/
theorem short_scan {n : Nat} {hdr body : Bytes} (hh : LenHeader n hdr) (h3 : 3 ≤ (hdr ++ body).length)
    (hb : body.length < n + 1) (hf : Filler (hdr ++ body)) (spare : Bytes) :
    ∃ b, Scan spare (0x55 :: (hdr ++ body)) [] b ∧ (b = true ↔ Overruns spare (hdr ++ body)) := by
  by_cases ho : Overruns spare (hdr ++ body)
  · exact ⟨true, .crash (j := []) (by simp [Filler]) ho, by simp [ho]⟩
  · refine ⟨false, .skip (j := []) (by simp [Filler]) ?_ ho (.done hf), by simp [ho]⟩
    rintro ⟨q, w, rest, hw, e⟩
    have hr := readPacket_isPacket [] w q rest spare (by simp [Filler]) hw
    rw [List.nil_append, ← e] at hr
    have := readPacket_start [] (hdr ++ body) spare (by simp [Filler])
    rw [List.nil_append, hr, afterStart_header _ _ _ _ (parseHeader_of_LenHeader hh body h3)] at this
    have hlt : (hdr ++ body).length < hdr.length + n + 1 := by rw [List.length_append]; omega
    split at this
    · cases this
    · split at this
      · cases this
      · cases this

/-- C120, packets: let a packet without a further start byte be sent, its first and last report arrive and others not. Whatever is
in memory behind the frame: no packet is read from it. `ReadPacket` panics iff the memory behind the frame ends before the packet
or happens to complete its checksum; otherwise it reports an error, and then there is nothing more. -/
theorem C120_packet (defs : List ReportDef) (t : Transfer) (h : Heads defs t)
    (p : Bytes) (hp : t.Packet p) (he : t.ended = true) (hc : ¬ t.Complete) (spare : Bytes) :
    (Overruns spare (dataOf t.got).tail → readPacket ⟨dataOf t.got, spare⟩ = .panic) ∧
    (¬ Overruns spare (dataOf t.got).tail → ∃ rest e, readPacket ⟨dataOf t.got, spare⟩ = .ret (⟨rest, spare⟩, .error e) ∧
      readPacket ⟨rest, spare⟩ = .ret (⟨rest, spare⟩, .error .eof)) := by
  obtain ⟨hdr, body, e1, e2, e3, e4, e5⟩ := too_short h hp he hc
  rw [e1, List.tail_cons]
  refine ⟨fun ho => readPacket_overrun (j := []) (by simp [Filler]) ho, fun ho => ?_⟩
  have hnp : ¬ PacketHere (0x55 :: (hdr ++ body)) := by
    obtain ⟨b, hs, _⟩ := short_scan e2 e3 e4 e5 spare
    rintro ⟨q, w, rest, hw, e⟩
    rw [e] at hs
    obtain ⟨ps, b', hs'⟩ := scan_total spare rest
    have := scan_unique hs (by simpa using Scan.packet (j := []) (by simp [Filler]) hw hs')
    cases this.1
  obtain ⟨e, _, hr⟩ := readPacket_skip (j := []) (spare := spare) (by simp [Filler]) hnp ho
  exact ⟨_, e, hr, readPacket_filler _ _ e5⟩

/-! ### the server -/

theorem scan_lost {σ : Type} (D : Device σ) (clock : Clock) {s : Srv σ} (hs : s.ctx.out = []) {d spare : Bytes} {b : Bool}
    (h : Scan spare d [] b) :
    (b = true ∧ processFrame D clock s ⟨d, spare⟩ = .panic) ∨ processFrame D clock s ⟨d, spare⟩ = .ret (s, []) := by
  cases b with
  | true => exact .inl ⟨rfl, (processFrame_panic h).2 (.inl rfl)⟩
  | false =>
    refine .inr ?_
    rw [processFrame_course D clock s h]
    obtain ⟨m, c⟩ := s
    cases c
    cases hs
    rfl

theorem processFrame_out {σ : Type} {D : Device σ} {clock : Clock} {s s' : Srv σ} {f : Slice} {w : List Bytes}
    (h : processFrame D clock s f = .ret (s', w)) : s'.ctx.out = [] := by
  obtain ⟨d, spare⟩ := f
  obtain ⟨ps, m1, cmds, c, news, rs, _, _, _, _, _, e⟩ := processFrame_ret h
  rw [e]

/-- A whole packet, read from either of two frames that differ at most in what is behind them. -/
theorem whole_scan {defs : List ReportDef} {t : Transfer} (h : Heads defs t) {p : Bytes} (hp : t.Packet p)
    (spare : Bytes) : Scan spare (dataOf t.sent) [p] false := by
  obtain ⟨pad, e, hz, _⟩ := h.cut.data
  rw [e]
  have : Scan spare pad [] false := .done fun hm => absurd (hz _ hm) (by decide)
  simpa using Scan.packet (j := []) (by simp [Filler]) hp.1 this

/-- C120, the server: let of every packet without a further start byte the first report arrive or none. What the server does with
the frames that are delivered is what it does with the packets that arrived whole, unless an incomplete packet goes beyond the
memory behind its frame or happens to be completed by it: then it panics. -/
theorem C120_server_partial {σ : Type} (D : Device σ) (clock : Clock) (defs : List ReportDef)
    (ts : List Transfer) (h : ∀ t ∈ ts, Heads defs t ∧ ∃ p, t.Packet p) (fs ws : List Slice)
    (hf : fs.map (·.data) = (ts.filter (·.ended)).map fun t => dataOf t.got)
    (hw : ws.map (·.data) = (ts.filter (·.whole)).map fun t => dataOf t.sent) (s : Srv σ) (hs : s.ctx.out = []) :
    (processFrames D clock (fs.map .ok) s = .panic ∧
      ∃ f ∈ fs, ∃ t ∈ ts, f.data = dataOf t.got ∧ ¬ t.Complete ∧ Overruns f.spare f.data.tail) ∨
    processFrames D clock (fs.map .ok) s = processFrames D clock (ws.map .ok) s := by
  induction ts generalizing fs ws s with
  | nil =>
    rw [List.filter_nil, List.map_nil, List.map_eq_nil_iff] at hf hw
    subst hf; subst hw
    exact .inr rfl
  | cons t ts ih =>
    have ih := ih fun t ht => h t (.tail _ ht)
    obtain ⟨hh, p, hp⟩ := h t (.head _)
    have lift : ∀ {fs' : List Slice} {f : Slice},
        (∃ f ∈ fs', ∃ t ∈ ts, f.data = dataOf t.got ∧ ¬ t.Complete ∧ Overruns f.spare f.data.tail) →
        ∃ g ∈ f :: fs', ∃ u ∈ t :: ts, g.data = dataOf u.got ∧ ¬ u.Complete ∧ Overruns g.spare g.data.tail := by
      rintro fs' f ⟨g, hg, u, hu, r⟩
      exact ⟨g, .tail _ hg, u, .tail _ hu, r⟩
    by_cases he : t.ended = true
    · rw [List.filter_cons_of_pos he, List.map_cons] at hf
      rcases fs with _ | ⟨f, fs⟩
      · cases hf
      rw [List.map_cons, List.cons.injEq] at hf
      obtain ⟨hf1, hf2⟩ := hf
      obtain ⟨fd, fsp⟩ := f
      obtain rfl : fd = dataOf t.got := hf1
      by_cases hc : t.Complete
      · have hc' : t.whole = true := decide_eq_true hc
        rw [List.filter_cons_of_pos (by exact hc'), List.map_cons] at hw
        rcases ws with _ | ⟨w, ws⟩
        · cases hw
        rw [List.map_cons, List.cons.injEq] at hw
        obtain ⟨hw1, hw2⟩ := hw
        obtain ⟨wd, wsp⟩ := w
        obtain rfl : wd = dataOf t.sent := hw1
        have e : processFrame D clock s ⟨dataOf t.got, fsp⟩ = processFrame D clock s ⟨dataOf t.sent, wsp⟩ := by
          rw [show t.got = t.sent from hc, processFrame_course D clock s (whole_scan hh hp fsp),
            processFrame_course D clock s (whole_scan hh hp wsp)]
        simp only [List.map_cons, processFrames, e]
        cases hx : processFrame D clock s ⟨dataOf t.sent, wsp⟩ with
        | panic => exact .inr rfl
        | ret x =>
          simp only [Out.bind_ret]
          rcases ih fs ws hf2 hw2 x.1 (processFrame_out hx) with ⟨h1, h2⟩ | h1
          · exact .inl ⟨by rw [h1]; rfl, lift h2⟩
          · exact .inr (by rw [h1])
      · have hc' : ¬ t.whole = true := by simpa [Transfer.whole] using hc
        rw [List.filter_cons_of_neg (by exact hc')] at hw
        obtain ⟨hdr, body, e1, e2, e3, e4, e5⟩ := too_short hh hp he hc
        obtain ⟨b, hb, hbo⟩ := short_scan e2 e3 e4 e5 fsp
        rw [← e1] at hb
        rcases scan_lost D clock hs hb with ⟨hbt, h1⟩ | h1
        · refine .inl ⟨by simp only [List.map_cons, processFrames, h1]; rfl, _, .head _, t, .head _, rfl, hc, ?_⟩
          simp only [e1, List.tail_cons]
          exact hbo.1 hbt
        · simp only [List.map_cons, processFrames, h1, Out.bind_ret, List.nil_append]
          rcases ih fs ws hf2 hw s hs with ⟨h1, h2⟩ | h1
          · exact .inl ⟨by rw [h1]; rfl, lift h2⟩
          · refine .inr ?_
            rw [h1]
            cases processFrames D clock (ws.map .ok) s <;> rfl
    · rw [List.filter_cons_of_neg (by exact he)] at hf
      have hc : ¬ t.whole = true := by
        intro hc
        exact he (ended_iff.2 (whole_ended hh (of_decide_eq_true hc)))
      rw [List.filter_cons_of_neg (by exact hc)] at hw
      rcases ih fs ws hf hw s hs with ⟨h1, g, hg', u, hu, r⟩ | h1
      · exact .inl ⟨h1, g, hg', u, .tail _ hu, r⟩
      · exact .inr h1

theorem readFrames_slices (grow : Growth) (defs : List ReportDef) (n : Nat) (rs : List (Except Err Report)) (buf : Slice) :
    readFrames grow defs n rs buf = frameReads grow defs n rs buf >>= fun xs => .ret (xs.map (Except.map (·.data))) := by
  induction n generalizing rs buf with
  | zero => rfl
  | succ n ih =>
    rw [readFrames, frameReads]
    cases readFrame grow defs rs buf with
    | panic => rfl
    | ret x =>
      obtain ⟨a, b, c⟩ := x
      simp only [Out.bind_ret, ih]
      cases frameReads grow defs n a b <;> rfl

/-- What the reads gave, as frames with what is in memory behind them. -/
theorem reads_split {xs : List (Except Err Slice)} {ds : List Bytes} {k : Nat}
    (h : xs.map (Except.map (·.data)) = ds.map .ok ++ List.replicate k (.error .eof)) :
    ∃ fs : List Slice, xs = fs.map .ok ++ List.replicate k (.error .eof) ∧ fs.map (·.data) = ds := by
  induction ds generalizing xs with
  | nil =>
    refine ⟨[], ?_, rfl⟩
    rw [List.map_nil, List.nil_append] at h ⊢
    induction k generalizing xs with
    | zero => simpa using h
    | succ k ih =>
      rcases xs with _ | ⟨x, xs⟩
      · cases h
      · rw [List.map_cons, List.replicate_succ, List.cons.injEq] at h
        cases x with
        | error e => rw [List.replicate_succ, ← ih h.2]; cases h.1; rfl
        | ok f => cases h.1
  | cons d ds ih =>
    rcases xs with _ | ⟨x, xs⟩
    · cases h
    · rw [List.map_cons, List.map_cons, List.cons_append, List.cons.injEq] at h
      obtain ⟨fs, e1, e2⟩ := ih h.2
      cases x with
      | error e => cases h.1
      | ok f =>
        refine ⟨f :: fs, by rw [e1]; rfl, ?_⟩
        rw [List.map_cons, e2]
        have := h.1
        simp only [Except.map, Except.ok.injEq] at this
        rw [this]

theorem reads_done {σ : Type} (D : Device σ) (clock : Clock) (fs : List Slice) (k : Nat) (s : Srv σ) :
    processFrames D clock (fs.map .ok ++ List.replicate k (.error .eof)) s = processFrames D clock (fs.map .ok) s := by
  induction fs generalizing s with
  | nil => cases k <;> rfl
  | cons f fs ih =>
    simp only [List.map_cons, List.cons_append, processFrames]
    congr 1
    funext x
    rw [ih]

/-- What the server does with the reports that arrive, until there are no more. -/
def served {σ : Type} (D : Device σ) (clock : Clock) (grow : Growth) (defs : List ReportDef) (n : Nat)
    (rs : List (Except Err Report)) (buf : Slice) (s : Srv σ) : Out (Srv σ × List Bytes) :=
  frameReads grow defs n rs buf >>= fun xs => processFrames D clock xs s

theorem served_frames {σ : Type} (D : Device σ) (clock : Clock) (grow : Growth) (defs : List ReportDef) (n : Nat)
    (rs : List (Except Err Report)) (buf : Slice) (s : Srv σ) {ds : List Bytes} {k : Nat}
    (h : readFrames grow defs n rs buf = .ret (ds.map .ok ++ List.replicate k (.error .eof))) :
    ∃ fs : List Slice, fs.map (·.data) = ds ∧ served D clock grow defs n rs buf s = processFrames D clock (fs.map .ok) s := by
  rw [readFrames_slices] at h
  unfold served
  cases hx : frameReads grow defs n rs buf with
  | panic => rw [hx] at h; cases h
  | ret xs =>
    rw [hx, Out.bind_ret] at h
    obtain ⟨fs, e1, e2⟩ := reads_split (Out.ret.inj h)
    exact ⟨fs, e2, by rw [Out.bind_ret, e1, reads_done]⟩

/-- C120, from the reports to the replies: under the same conditions, the server either panics or ends in the state and writes the
frames it would if the packets that lost a report had not been sent at all. -/
theorem C120_served_partial {σ : Type} (D : Device σ) (clock : Clock) (grow : Growth) (defs : List ReportDef) (hg : GoodTable defs)
    (ts : List Transfer) (h : ∀ t ∈ ts, Heads defs t ∧ ∃ p, t.Packet p) (buf buf' : Slice) (k k' : Nat) (s : Srv σ)
    (hs : s.ctx.out = []) :
    served D clock grow defs ((ts.filter (·.ended)).length + k) (arrived ts) buf s = .panic ∨
    served D clock grow defs ((ts.filter (·.ended)).length + k) (arrived ts) buf s =
      served D clock grow defs ((ts.filter (·.whole)).length + k') (arrived (ts.filter (·.whole))) buf' s := by
  have h1 := C120_frames grow defs hg ts (fun t ht => (h t ht).1) buf k
  have h2 := C120_frames grow defs hg (ts.filter (·.whole)) (fun t ht => (h t (List.mem_filter.1 ht).1).1) buf' k'
  have e : (ts.filter (·.whole)).filter (·.ended) = ts.filter (·.whole) := by
    rw [List.filter_eq_self]
    intro t ht
    obtain ⟨ht, hc⟩ := List.mem_filter.1 ht
    exact ended_iff.2 (whole_ended (h t ht).1 (of_decide_eq_true hc))
  rw [e] at h2
  rw [show (fun t : Transfer => (Except.ok (dataOf t.got) : Except Err Bytes)) = Except.ok ∘ fun t => dataOf t.got from rfl,
    ← List.map_map] at h1 h2
  obtain ⟨fs, f1, f2⟩ := served_frames D clock grow defs _ _ buf s h1
  obtain ⟨ws, w1, w2⟩ := served_frames D clock grow defs _ _ buf' s h2
  rw [f2, w2]
  have w1' : ws.map (·.data) = (ts.filter (·.whole)).map fun t => dataOf t.sent := by
    rw [w1]
    refine List.map_congr_left fun t ht => ?_
    rw [show t.got = t.sent from of_decide_eq_true (List.mem_filter.1 ht).2]
  rcases C120_server_partial D clock defs ts h fs ws f1 w1' s hs with ⟨h, _⟩ | h
  · exact .inl h
  · exact .inr h

/-! ### where it fails -/

/-- Reports of four bytes. -/
abbrev fours : List ReportDef := [⟨1, 5, .accIn⟩]

theorem fours_good : GoodTable fours := ⟨by decide, by decide, by decide, ⟨⟨1, 5, .accIn⟩, by decide, rfl⟩⟩

theorem fours_last : LastIn fours ⟨1, 5, .accIn⟩ := ⟨[], [], rfl, rfl, by simp⟩

theorem fours_cut {frame : Bytes} (hf : frame ≠ []) {rs : List Report} (hw : Written fours frame rs) : Cut fours frame rs :=
  cut_of_written fours_good fours_last (by decide) (by decide) hf hw

/-- A packet whose payload contains another, RequestiPodName, sent without its second report. -/
def nested : Transfer :=
  ⟨[0x55, 0x0C, 0x05, 0x01, 0x01, 0x02, 0x03, 0x04, 0x55, 0x02, 0x00, 0x07, 0xF7, 0x09, 0x86],
    [⟨1, 2, [0x55, 0x0C, 0x05, 0x01]⟩, ⟨1, 3, [0x01, 0x02, 0x03, 0x04]⟩, ⟨1, 3, [0x55, 0x02, 0x00, 0x07]⟩, ⟨1, 1, [0xF7, 0x09, 0x86, 0x00]⟩],
    [⟨1, 2, [0x55, 0x0C, 0x05, 0x01]⟩, ⟨1, 3, [0x55, 0x02, 0x00, 0x07]⟩, ⟨1, 1, [0xF7, 0x09, 0x86, 0x00]⟩]⟩

/-- Two packets, the first without its last two reports, the second without its first. -/
def crossed : List Transfer :=
  [⟨[0x55, 0x0A, 0x00, 0x02, 0x01, 0x01, 0x01, 0x01, 0x01, 0x01, 0x01, 0x01, 0xEC],
    [⟨1, 2, [0x55, 0x0A, 0x00, 0x02]⟩, ⟨1, 3, [0x01, 0x01, 0x01, 0x01]⟩, ⟨1, 3, [0x01, 0x01, 0x01, 0x01]⟩, ⟨1, 1, [0xEC, 0x00, 0x00, 0x00]⟩],
    [⟨1, 2, [0x55, 0x0A, 0x00, 0x02]⟩, ⟨1, 3, [0x01, 0x01, 0x01, 0x01]⟩]⟩,
   ⟨[0x55, 0x06, 0x00, 0x0A, 0x05, 0x06, 0x07, 0x08, 0xD6],
    [⟨1, 2, [0x55, 0x06, 0x00, 0x0A]⟩, ⟨1, 3, [0x05, 0x06, 0x07, 0x08]⟩, ⟨1, 1, [0xD6, 0x00, 0x00, 0x00]⟩],
    [⟨1, 3, [0x05, 0x06, 0x07, 0x08]⟩, ⟨1, 1, [0xD6, 0x00, 0x00, 0x00]⟩]⟩]

/-- One packet without its second report. -/
def gappy : Transfer :=
  ⟨[0x55, 0x0A, 0x00, 0x02, 0x01, 0x01, 0x01, 0x01, 0x01, 0x01, 0x01, 0x01, 0xEC],
    [⟨1, 2, [0x55, 0x0A, 0x00, 0x02]⟩, ⟨1, 3, [0x01, 0x01, 0x01, 0x01]⟩, ⟨1, 3, [0x01, 0x01, 0x01, 0x01]⟩, ⟨1, 1, [0xEC, 0x00, 0x00, 0x00]⟩],
    [⟨1, 2, [0x55, 0x0A, 0x00, 0x02]⟩, ⟨1, 3, [0x01, 0x01, 0x01, 0x01]⟩, ⟨1, 1, [0xEC, 0x00, 0x00, 0x00]⟩]⟩

theorem gappy_heads : Heads fours gappy ∧ ∃ p, gappy.Packet p :=
  ⟨⟨fours_cut (by decide) ⟨16, by decide +kernel⟩, by decide, .inr (by decide)⟩,
    [0x00, 0x02, 0x01, 0x01, 0x01, 0x01, 0x01, 0x01, 0x01, 0x01],
    ⟨[0x0A], 0xEC, .inl ⟨0x0A, by decide, by decide, rfl⟩, by decide, by decide⟩, by unfold Filler; decide⟩

/-- A packet of 19 reports of which only the first and the last arrive. -/
def torn : Transfer :=
  ⟨[0x55, 0x48, 0x00, 0x02] ++ List.replicate 70 0x01 ++ [0x70],
    ⟨1, 2, [0x55, 0x48, 0x00, 0x02]⟩ :: (List.replicate 17 ⟨1, 3, [0x01, 0x01, 0x01, 0x01]⟩ ++ [⟨1, 1, [0x01, 0x01, 0x70, 0x00]⟩]),
    [⟨1, 2, [0x55, 0x48, 0x00, 0x02]⟩, ⟨1, 1, [0x01, 0x01, 0x70, 0x00]⟩]⟩

/-- C120, against. (1) If the payload contains a start byte: of a packet, to which the server does not reply, a report in the middle
is lost, and it answers a command that was never sent. (2) If the first report may be lost: of two packets neither arrives whole, and
a third is read. (3) Even with the first report and without a further start byte: the server may panic. -/
theorem C120_fails :
    (Heads fours nested ∧ (∃ p, IsPacket p nested.frame) ∧ ¬ nested.Complete ∧
      written (served devGeneral (fun _ => ⟨2024, 1, 2, 3, 4⟩) (fun _ n => 2 * n) fours 2 (arrived [{ nested with got := nested.sent }])
        ⟨[], List.replicate 32 0⟩ (Srv.init DevGeneral.zero)) = .ret [] ∧
      written (served devGeneral (fun _ => ⟨2024, 1, 2, 3, 4⟩) (fun _ n => 2 * n) fours 2 (arrived [nested])
        ⟨[], List.replicate 32 0⟩ (Srv.init DevGeneral.zero)) =
        .ret [[0x55, 0x0E, 0x00, 0x08, 0x69, 0x70, 0x6F, 0x64, 0x2D, 0x67, 0x61, 0x64, 0x67, 0x65, 0x74, 0x00, 0xA5]]) ∧
    ((∀ t ∈ crossed, Written fours t.frame t.sent ∧ t.got.Sublist t.sent ∧ (∃ p, t.Packet p) ∧ ¬ t.Complete) ∧
      ∃ frame q, readFrames (fun _ n => 2 * n) fours 2 (arrived crossed) ⟨[], []⟩ = .ret [.ok frame, .error .eof] ∧
        readPacket ⟨frame, []⟩ = .ret (⟨[0, 0, 0], []⟩, .ok q) ∧ ∀ t ∈ crossed, ¬ t.Packet q) ∧
    (Heads fours torn ∧ (∃ p, torn.Packet p) ∧ ¬ torn.Complete ∧
      written (served devGeneral (fun _ => ⟨2024, 1, 2, 3, 4⟩) (fun _ n => 2 * n) fours 2 (arrived [torn]) ⟨[], []⟩
        (Srv.init DevGeneral.zero)) = .panic) := by
  refine ⟨⟨⟨fours_cut (by decide) ⟨16, by decide +kernel⟩, by decide, .inr (by decide)⟩,
      ⟨[0x05, 0x01, 0x01, 0x02, 0x03, 0x04, 0x55, 0x02, 0x00, 0x07, 0xF7, 0x09], [0x0C], 0x86, .inl ⟨0x0C, by decide, by decide, rfl⟩,
        by decide, by decide⟩, by decide, by decide +kernel, by decide +kernel⟩,
    ⟨?_, [0x55, 0x0A, 0x00, 0x02, 0x01, 0x01, 0x01, 0x01, 0x05, 0x06, 0x07, 0x08, 0xD6, 0x00, 0x00, 0x00],
      [0x00, 0x02, 0x01, 0x01, 0x01, 0x01, 0x05, 0x06, 0x07, 0x08], by decide +kernel, by decide +kernel, ?_⟩,
    ⟨fours_cut (by decide) ⟨76, by decide +kernel⟩, by decide, .inr (by decide)⟩,
    ⟨[0x00, 0x02] ++ List.replicate 70 0x01, ⟨[0x48], 0x70, .inl ⟨0x48, by decide, by decide, rfl⟩, by decide, by decide +kernel⟩,
      by unfold Filler; decide +kernel⟩, by decide, by decide +kernel⟩
  · intro t ht
    simp only [crossed, List.mem_cons, List.not_mem_nil, or_false] at ht
    rcases ht with rfl | rfl
    · exact ⟨⟨16, by decide +kernel⟩, by decide, gappy_heads.2, by decide⟩
    · exact ⟨⟨16, by decide +kernel⟩, by decide, ⟨[0x00, 0x0A, 0x05, 0x06, 0x07, 0x08],
        ⟨[0x06], 0xD6, .inl ⟨0x06, by decide, by decide, rfl⟩, by decide, by decide⟩, by unfold Filler; decide⟩, by decide⟩
  · intro t ht hp
    obtain ⟨⟨hdr, ck, hh, he, _⟩, _⟩ := hp
    have := congrArg List.length he
    simp only [crossed, List.mem_cons, List.not_mem_nil, or_false] at ht
    rcases hh with ⟨b, hb, hn, rfl⟩ | ⟨hi, lo, hn, rfl⟩
    · rcases ht with rfl | rfl <;> simp at he
    · rcases ht with rfl | rfl <;> simp at this

/-- Hypotheses of `C120_packet`; with 8 bytes behind the frame there is an error. -/
example : ∃ rest e, readPacket ⟨dataOf gappy.got, [0, 0, 0, 0, 0, 0, 0, 0]⟩ = .ret (⟨rest, [0, 0, 0, 0, 0, 0, 0, 0]⟩, .error e) ∧
    readPacket ⟨rest, [0, 0, 0, 0, 0, 0, 0, 0]⟩ = .ret (⟨rest, [0, 0, 0, 0, 0, 0, 0, 0]⟩, .error .eof) := by
  obtain ⟨h, p, hp⟩ := gappy_heads
  refine (C120_packet fours gappy h p hp (by decide) (by decide) _).2 ?_
  intro ho
  have := readPacket_overrun (j := []) (by simp [Filler]) ho
  revert this
  decide +kernel

/-- Hypotheses of `C120_server_partial` and `C120_served_partial`: the packet without its second report, then one that arrives whole,
RequestiPodName. -/
def gappyThenWhole : List Transfer :=
  [gappy, ⟨[0x55, 0x02, 0x00, 0x07, 0xF7], [⟨1, 2, [0x55, 0x02, 0x00, 0x07]⟩, ⟨1, 1, [0xF7, 0x00, 0x00, 0x00]⟩],
    [⟨1, 2, [0x55, 0x02, 0x00, 0x07]⟩, ⟨1, 1, [0xF7, 0x00, 0x00, 0x00]⟩]⟩]

theorem gappyThenWhole_heads : ∀ t ∈ gappyThenWhole, Heads fours t ∧ ∃ p, t.Packet p := by
  intro t ht
  simp only [gappyThenWhole, List.mem_cons, List.not_mem_nil, or_false] at ht
  rcases ht with rfl | rfl
  · exact gappy_heads
  · exact ⟨⟨fours_cut (by decide) ⟨16, by decide +kernel⟩, by decide, .inr (by decide)⟩, [0x00, 0x07],
      ⟨[0x02], 0xF7, .inl ⟨0x02, by decide, by decide, rfl⟩, by decide, by decide⟩, by unfold Filler; decide⟩

example : served devGeneral (fun _ => ⟨2024, 1, 2, 3, 4⟩) (fun _ n => 2 * n) fours 3 (arrived gappyThenWhole)
      ⟨[], List.replicate 32 0⟩ (Srv.init DevGeneral.zero) =
    served devGeneral (fun _ => ⟨2024, 1, 2, 3, 4⟩) (fun _ n => 2 * n) fours 2 (arrived (gappyThenWhole.filter (·.whole)))
      ⟨[], []⟩ (Srv.init DevGeneral.zero) := by
  rcases C120_served_partial devGeneral (fun _ => ⟨2024, 1, 2, 3, 4⟩) (fun _ n => 2 * n) fours fours_good
    gappyThenWhole gappyThenWhole_heads ⟨[], List.replicate 32 0⟩ ⟨[], []⟩ 1 1 (Srv.init DevGeneral.zero) rfl with h | h
  · exfalso
    have : written (served devGeneral (fun _ => ⟨2024, 1, 2, 3, 4⟩) (fun _ n => 2 * n) fours 3 (arrived gappyThenWhole)
      ⟨[], List.replicate 32 0⟩ (Srv.init DevGeneral.zero)) ≠ .panic := by decide +kernel
    exact this (by rw [show served devGeneral (fun _ => ⟨2024, 1, 2, 3, 4⟩) (fun _ n => 2 * n) fours 3 (arrived gappyThenWhole)
      ⟨[], List.replicate 32 0⟩ (Srv.init DevGeneral.zero) = .panic from h]; rfl)
  · exact h

example := C120_server_partial devGeneral (fun _ => ⟨2024, 1, 2, 3, 4⟩) fours
  gappyThenWhole gappyThenWhole_heads
  [⟨dataOf gappy.got, [0, 0, 0, 0, 0, 0, 0, 0]⟩, ⟨[0x55, 0x02, 0x00, 0x07, 0xF7, 0x00, 0x00, 0x00], []⟩]
  [⟨[0x55, 0x02, 0x00, 0x07, 0xF7, 0x00, 0x00, 0x00], []⟩] (by decide) (by decide) (Srv.init DevGeneral.zero) rfl

/-- Reports from an accessory, of the legacy table: 4 bytes, 8 bytes, 4 bytes. -/
example : Cut legacyReportDefs ([0x55, 0x0B, 0x04, 0x00] ++ List.replicate 8 0x01 ++ [0x01, 0xE8])
    [⟨0x0D, 2, [0x55, 0x0B, 0x04, 0x00]⟩, ⟨0x0E, 3, List.replicate 8 0x01⟩, ⟨0x0D, 1, [0x01, 0xE8, 0x00, 0x00]⟩] := by
  refine ⟨?_, .inr ⟨_, [⟨0x0E, 3, List.replicate 8 0x01⟩], ⟨0x0D, 1, [0x01, 0xE8, 0x00, 0x00]⟩, rfl, rfl, by simp, rfl, by decide⟩,
    [0x00, 0x00], by decide, by unfold Zeros; decide, by decide⟩
  intro r hr
  simp only [List.mem_cons, List.not_mem_nil, or_false] at hr
  rcases hr with rfl | rfl | rfl
  · exact ⟨accepted_iff.2 ⟨⟨0x0D, 5, .accOut⟩, by decide, by decide⟩, by unfold Known; decide⟩
  · exact ⟨accepted_iff.2 ⟨⟨0x0E, 9, .accOut⟩, by decide, by decide⟩, by unfold Known; decide⟩
  · exact ⟨accepted_iff.2 ⟨⟨0x0D, 5, .accOut⟩, by decide, by decide⟩, by unfold Known; decide⟩

/-- Hypotheses of `C120_cut`. -/
example : Cut defaultReportDefs [1, 2, 3] [⟨1, 0, [1, 2, 3, 0, 0, 0, 0, 0, 0, 0, 0]⟩] :=
  (C120_cut [1, 2, 3] (by decide) _).1 ⟨4, by decide +kernel⟩

/-- Hypotheses of `C120_frames`. -/
example : readFrames (fun _ n => 2 * n) fours (2 + 1) (arrived gappyThenWhole) ⟨[], []⟩ =
    .ret [.ok [0x55, 0x0A, 0x00, 0x02, 0x01, 0x01, 0x01, 0x01, 0xEC, 0x00, 0x00, 0x00],
      .ok [0x55, 0x02, 0x00, 0x07, 0xF7, 0x00, 0x00, 0x00], .error .eof] :=
  C120_frames _ fours fours_good gappyThenWhole (fun t ht => (gappyThenWhole_heads t ht).1) _ 1

end Props
