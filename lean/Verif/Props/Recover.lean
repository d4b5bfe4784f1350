import Verif.Spec.Recover
import Verif.Props.Damaged
import Verif.Props.Online
import Verif.Props.Handshake
import Verif.Lemmas.Record

/-! # C123: a connection that was disturbed recovers -/

namespace Props
open Go Spec Ipod Ipod.Hid

/-- The reports of one frame, all of them: each fits its definition and holds a byte at least. -/
structure Unhurt (defs : List ReportDef) (rs : List Report) : Prop where
  parts : ∀ r ∈ rs, Part defs r
  shape : OneFrame rs
  sizes : ∀ r ∈ rs, 1 ≤ r.data.length ∧ r.data.length ≤ 1022

/-- Whatever is pending, the reports of one frame give just that frame. -/
theorem oneFrame_gathered {rs : List Report} (h : OneFrame rs) (p : Bytes) (rest : List Report) :
    gathered p (rs ++ rest) = dataOf rs :: gathered [] rest := by
  rcases h with ⟨r, rfl, h0⟩ | ⟨first, mid, last, rfl, h1, h2, h3⟩
  · rw [List.singleton_append, gathered_end (.inl h0), if_pos h0]
    simp [dataOf]
  · have hne : ∀ r ∈ first :: mid, ¬ Ends r := by
      intro r hr
      rcases List.mem_cons.1 hr with rfl | hr
      · unfold Ends; rw [h1]; decide
      · unfold Ends; rw [h2 r hr]; decide
    have hheld := held_starts p [] h1 mid (fun r hr => by rw [h2 r hr]; decide)
    rw [List.nil_append] at hheld
    rw [← List.cons_append, List.append_assoc, gathered_run _ _ hne, hheld, List.singleton_append, gathered_end (.inr h3),
      if_neg (by rw [h3]; decide), dataOf_append, dataOf_cons]
    simp [dataOf]

theorem oneFrame_all (rss : List (List Report)) (h : ∀ rs ∈ rss, OneFrame rs) (p : Bytes) : gathered p rss.flatten = rss.map dataOf := by
  induction rss generalizing p with
  | nil => rfl
  | cons rs rss ih =>
    rw [List.flatten_cons, oneFrame_gathered (h rs (.head _)), ih (fun rs hr => h rs (.tail _ hr)), List.map_cons]

theorem oneFrame_starts {rs : List Report} (h : OneFrame rs) : ∃ r tl, rs = r :: tl ∧ Starts r := by
  rcases h with ⟨r, rfl, h0⟩ | ⟨first, mid, last, rfl, h1, _⟩
  · exact ⟨r, [], rfl, .inl h0⟩
  · exact ⟨first, _, rfl, .inr h1⟩

theorem raw_unhurt {defs : List ReportDef} (rss : List (List Report)) (h : ∀ rs ∈ rss, Unhurt defs rs) :
    (rss.flatMap arriving).map rawReadReport = rss.flatten.map .ok := by
  induction rss with
  | nil => rfl
  | cons rs rss ih =>
    rw [List.flatMap_cons, List.map_append, ih (fun rs hr => h rs (.tail _ hr)), List.flatten_cons, List.map_append, arriving,
      List.map_map]
    congr 1
    refine List.map_congr_left fun r hr => ?_
    have := (h rs (.head _)).sizes r hr
    exact C35_raw_roundtrip r this.1 this.2

/-- Frames whose packets can be told from them alone are processed alike wherever they are in memory. -/
theorem processFrames_settled {σ : Type} (D : Device σ) (clock : Clock) (fs gs : List Slice) (h : fs.map (·.data) = gs.map (·.data))
    (hf : ∀ f ∈ fs, Settled f.data) (s : Srv σ) : processFrames D clock (fs.map .ok) s = processFrames D clock (gs.map .ok) s := by
  induction fs generalizing gs s with
  | nil =>
    cases gs with
    | nil => rfl
    | cons g gs => simp at h
  | cons f fs ih =>
    cases gs with
    | nil => simp at h
    | cons g gs =>
      simp only [List.map_cons, List.cons.injEq] at h
      obtain ⟨ps, hp⟩ := hf f (.head _)
      have e : processFrame D clock s f = processFrame D clock s g := by
        obtain ⟨d, sp⟩ := f
        obtain ⟨d', sp'⟩ := g
        obtain rfl : d = d' := h.1
        rw [processFrame_course D clock s (hp sp), processFrame_course D clock s (hp sp')]
      simp only [List.map_cons, processFrames, e]
      congr 1; funext x
      rw [ih gs h.2 (fun f hm => hf f (.tail _ hm))]

/-- Frames are processed alike wherever they are in memory, unless that makes the server panic. -/
theorem processFrames_elsewhere {σ : Type} (D : Device σ) (clock : Clock) (fs gs : List Slice) (h : fs.map (·.data) = gs.map (·.data))
    (s : Srv σ) : processFrames D clock (fs.map .ok) s = .panic ∨ processFrames D clock (gs.map .ok) s = .panic ∨
      processFrames D clock (fs.map .ok) s = processFrames D clock (gs.map .ok) s := by
  induction fs generalizing gs s with
  | nil =>
    cases gs with
    | nil => exact .inr (.inr rfl)
    | cons g gs => simp at h
  | cons f fs ih =>
    cases gs with
    | nil => simp at h
    | cons g gs =>
      simp only [List.map_cons, List.cons.injEq] at h
      obtain ⟨d, sp⟩ := f
      obtain ⟨d', sp'⟩ := g
      obtain rfl : d = d' := h.1
      obtain ⟨ps, b, hp⟩ := scan_total sp d
      obtain ⟨ps', b', hp'⟩ := scan_total sp' d
      simp only [List.map_cons, processFrames]
      cases b with
      | true => exact .inl (by rw [(processFrame_panic hp).2 (.inl rfl)]; rfl)
      | false =>
        cases b' with
        | true => exact .inr (.inl (by rw [(processFrame_panic hp').2 (.inl rfl)]; rfl))
        | false =>
          obtain rfl := scan_spare hp hp'
          rw [processFrame_course D clock s hp, processFrame_course D clock s hp']
          cases course D clock s ps with
          | panic => exact .inl rfl
          | ret x =>
            simp only [Out.bind_ret]
            rcases ih gs h.2 x.1 with e | e | e
            · exact .inl (by rw [e]; rfl)
            · exact .inr (.inl (by rw [e]; rfl))
            · exact .inr (.inr (by rw [e]))

/-- Whatever the decoder's buffer held, frames that come whole are delivered. -/
theorem unhurt_served {σ : Type} (D : Device σ) (clock : Clock) (grow : Growth) (defs : List ReportDef) (hg : GoodTable defs)
    (rss : List (List Report)) (h : ∀ rs ∈ rss, Unhurt defs rs) (n : Nat) (hn : rss.length ≤ n) (buf : Slice) (s : Srv σ) :
    ∃ fs : List Slice, fs.map (·.data) = rss.map dataOf ∧
      served D clock grow defs n (rss.flatten.map .ok) buf s = processFrames D clock (fs.map .ok) s := by
  have hparts : ∀ r ∈ rss.flatten, Part defs r := by
    intro r hr
    obtain ⟨rs, h1, h2⟩ := List.mem_flatten.1 hr
    exact (h rs h1).parts r h2
  have hgath := oneFrame_all rss (fun rs hr => (h rs hr).shape) []
  obtain ⟨k, rfl⟩ := Nat.exists_eq_add_of_le hn
  have h1 := arriving_parts grow defs hg _ hparts buf k
  rw [hgath, List.length_map] at h1
  exact served_frames D clock grow defs _ _ buf s h1

theorem unhurt_length {defs : List ReportDef} (rss : List (List Report)) (h : ∀ rs ∈ rss, Unhurt defs rs) :
    rss.length ≤ (rss.flatMap arriving).length := by
  induction rss with
  | nil => simp
  | cons rs rss ih =>
    obtain ⟨r, tl, rfl, _⟩ := oneFrame_starts (h rs (.head _)).shape
    have := ih fun rs hr => h rs (.tail _ hr)
    simp only [List.flatMap_cons, List.length_append, List.length_cons, arriving, List.length_map] at this ⊢
    omega

/-- After whatever reads, and on a new connection, the same frames are processed; only what is in memory behind them may differ. -/
theorem recovers_frames {σ : Type} (D : Device σ) (clock : Clock) (grow : Growth) (defs : List ReportDef) (hg : GoodTable defs)
    (pre : List ReadRes) (s : Srv σ) (l : Live σ) (hpre : observed D clock grow defs pre s = .ret (l, true)) (rss : List (List Report))
    (h : ∀ rs ∈ rss, Unhurt defs rs) :
    ∃ fs gs : List Slice, fs.map (·.data) = rss.map dataOf ∧ gs.map (·.data) = rss.map dataOf ∧
      serve D clock grow defs (pre ++ rss.flatMap arriving) s =
        processFrames D clock (fs.map .ok) l.srv >>= (fun x => .ret (x.1, l.written ++ x.2)) ∧
      serve D clock grow defs (rss.flatMap arriving) l.srv = processFrames D clock (gs.map .ok) l.srv := by
  have hd : ∀ d ∈ defs, 1 ≤ d.len := fun d hm => by have := hg.carries d hm; omega
  have hd' : ∀ d ∈ defs, 0 ≤ d.maxPayload := fun d hm => by have := hd d hm; unfold ReportDef.maxPayload; omega
  rw [← C74_online D clock grow defs hd (pre ++ rss.flatMap arriving)]
  have hrun : observed D clock grow defs (pre ++ rss.flatMap arriving) s = Live.run D clock grow defs (rss.flatMap arriving) l := by
    unfold observed at hpre ⊢
    rw [run_append, hpre, Out.bind_ret, if_pos rfl]
  rw [hrun]
  have hlen := unhurt_length rss h
  have hraw := raw_unhurt rss h
  obtain ⟨gs, g1, g2⟩ := unhurt_served D clock grow defs hg rss h _ hlen ⟨[], []⟩ l.srv
  unfold served at g2
  rw [← hraw] at g2
  cases rss with
  | nil => exact ⟨[], [], rfl, rfl, by simp [Live.run, processFrames], rfl⟩
  | cons rs rss =>
    obtain ⟨r, tl, e, hst⟩ := oneFrame_starts (h rs (.head _)).shape
    have hacc := ((h rs (.head _)).parts r (by rw [e]; simp)).accepted
    obtain ⟨n, hn⟩ : ∃ n, ((rs :: rss).flatMap arriving).length = n + 1 := ⟨_, by
      rw [Nat.sub_add_cancel]; simp only [List.length_cons] at hlen; omega⟩
    obtain ⟨fs, f1, f2⟩ := unhurt_served D clock grow defs hg (rs :: rss) h (n + 1) (by omega) l.buf l.srv
    refine ⟨fs, gs, f1, g1, ?_, g2⟩
    have h1 := run_rest D clock grow hd' ((rs :: rss).flatMap arriving) n (by omega) l.buf l.srv l.written
    unfold Ipod.outcome at h1
    rw [show (⟨l.buf, l.srv, l.written⟩ : Live σ) = l from rfl] at h1
    rw [h1]
    have h2 : rest D clock grow defs n (((rs :: rss).flatMap arriving).map rawReadReport) l.buf l.srv =
        rest D clock grow defs n (((rs :: rss).flatMap arriving).map rawReadReport) l.buf.reset l.srv := by
      have : ∃ more : List (Except Err Report), (rs :: rss).flatten.map Except.ok = .ok r :: more := ⟨_, by rw [e]; rfl⟩
      obtain ⟨more, hmore⟩ := this
      rw [hraw, hmore]
      unfold rest
      rw [readFrameLoop_accepted grow defs r _ hacc, readFrameLoop_accepted grow defs r _ hacc]
      simp only [if_pos hst]
      rfl
    rw [h2, ← batch_rest, hraw, ← f2]
    rfl

/-- C123. Whatever the server's reads returned before (rubbish, frames without their beginning or end, errors), as long as it neither
crashed nor met the end of the connection: frames that then come whole, and whose packets can be told from them alone, are served as on
a new connection, in the state the server is in. Missing: frames in which a packet goes beyond the end (`C123_fails`). -/
theorem C123_recovers_partial {σ : Type} (D : Device σ) (clock : Clock) (grow : Growth) (defs : List ReportDef) (hg : GoodTable defs)
    (pre : List ReadRes) (s : Srv σ) (l : Live σ) (hpre : observed D clock grow defs pre s = .ret (l, true)) (rss : List (List Report))
    (h : ∀ rs ∈ rss, Unhurt defs rs) (hs : ∀ rs ∈ rss, Settled (dataOf rs)) :
    serve D clock grow defs (pre ++ rss.flatMap arriving) s =
      serve D clock grow defs (rss.flatMap arriving) l.srv >>= fun x => .ret (x.1, l.written ++ x.2) := by
  obtain ⟨fs, gs, f1, g1, f2, g2⟩ := recovers_frames D clock grow defs hg pre s l hpre rss h
  rw [f2, g2, processFrames_settled D clock fs gs (by rw [f1, g1])]
  intro f hf
  have : f.data ∈ rss.map dataOf := by rw [← f1]; exact List.mem_map_of_mem hf
  obtain ⟨rs, h1, h2⟩ := List.mem_map.1 this
  rw [← h2]
  exact hs rs h1

/-- C123, of any frames that then come whole: the server panics, or does what it does on a new connection, or would have panicked
there. -/
theorem C123_alike {σ : Type} (D : Device σ) (clock : Clock) (grow : Growth) (defs : List ReportDef) (hg : GoodTable defs)
    (pre : List ReadRes) (s : Srv σ) (l : Live σ) (hpre : observed D clock grow defs pre s = .ret (l, true)) (rss : List (List Report))
    (h : ∀ rs ∈ rss, Unhurt defs rs) :
    serve D clock grow defs (pre ++ rss.flatMap arriving) s = .panic ∨ serve D clock grow defs (rss.flatMap arriving) l.srv = .panic ∨
    serve D clock grow defs (pre ++ rss.flatMap arriving) s =
      serve D clock grow defs (rss.flatMap arriving) l.srv >>= fun x => .ret (x.1, l.written ++ x.2) := by
  obtain ⟨fs, gs, f1, g1, f2, g2⟩ := recovers_frames D clock grow defs hg pre s l hpre rss h
  rw [f2, g2]
  rcases processFrames_elsewhere D clock fs gs (by rw [f1, g1]) l.srv with e | e | e
  · exact .inl (by rw [e]; rfl)
  · exact .inr (.inl e)
  · exact .inr (.inr (by rw [e]))

/-- Packets written by the library into one frame, cut by its encoder, come whole. -/
theorem sentAs_unhurt {defs : List ReportDef} (hg : GoodTable defs) (hmax : ∀ d ∈ defs, d.maxPayload ≤ 1022)
    {p : List Bytes × List Report} (h : SentAs defs p) : Unhurt defs p.2 ∧ Settled (dataOf p.2) := by
  obtain ⟨h1, h2, h3⟩ := h
  have hf := frame_ne_nil h1 h2
  refine ⟨⟨part_of_written hg hf h3, written_shape hg hf h3, ?_⟩, ?_⟩
  · intro r hr
    obtain ⟨d, d1, _, _, d4⟩ := C31_fits_descriptor defs hg _ hf p.2 h3 r hr
    have := hg.carries d d1
    have := hmax d d1
    have hm : d.maxPayload = d.len - 1 := rfl
    exact ⟨by omega, by omega⟩
  · obtain ⟨pad, e, hz, _⟩ := ((written_is_chunks hg hf h3).data hg).2
    exact ⟨p.1, fun spare => by
      rw [e]
      exact stream_scan (stream_pad (C02_written_is_stream p.1 h2) hz) spare⟩

/-- C123 for packets the library writes, in the frames of its encoder. -/
theorem C123_packets_partial {σ : Type} (D : Device σ) (clock : Clock) (grow : Growth) (defs : List ReportDef) (hg : GoodTable defs)
    (hmax : ∀ d ∈ defs, d.maxPayload ≤ 1022) (pre : List ReadRes) (s : Srv σ) (l : Live σ)
    (hpre : observed D clock grow defs pre s = .ret (l, true)) (frames : List (List Bytes × List Report))
    (h : ∀ p ∈ frames, SentAs defs p) :
    serve D clock grow defs (pre ++ frames.flatMap fun p => arriving p.2) s =
      serve D clock grow defs (frames.flatMap fun p => arriving p.2) l.srv >>= fun x => .ret (x.1, l.written ++ x.2) := by
  have := C123_recovers_partial D clock grow defs hg pre s l hpre (frames.map (·.2)) (by
    intro rs hr
    obtain ⟨p, hp, rfl⟩ := List.mem_map.1 hr
    exact (sentAs_unhurt hg hmax (h p hp)).1) (by
    intro rs hr
    obtain ⟨p, hp, rfl⟩ := List.mem_map.1 hr
    exact (sentAs_unhurt hg hmax (h p hp)).2)
  rw [List.flatMap_map] at this
  exact this

/-- C123, what it is for: after whatever disturbance the server survived, an accessory that now identifies itself succeeds, and gets
the answers to its handshake behind what was written before. -/
theorem C123_handshake_partial (clock : Clock) (grow grow' : Growth) (defs defs' : List ReportDef) (hg : GoodTable defs)
    (hg' : GoodTable defs') (hmax : ∀ d ∈ defs, d.maxPayload ≤ 1022) (hmax' : ∀ d ∈ defs', d.maxPayload ≤ 1022)
    (pre : List ReadRes) (s : Srv DevGeneral) (l : Live DevGeneral)
    (hpre : observed devGeneral clock grow defs pre s = .ret (l, true))
    {xs : List Exchange} {ts : List FIDTokenValue} {cert : Bytes} (h : Handshake xs ts cert) (requests : List (List Report))
    (hl : requests.length = xs.length)
    (hr : ∀ x ∈ xs.zip requests, Sendable x.1.1 ∧ Written defs (writePacket newPacketWriter x.1.1).1 x.2)
    (hrep : ∀ x ∈ xs, ∀ r ∈ x.2, r.length ≠ 256) :
    ∃ s' w, serve devGeneral clock grow defs (pre ++ requests.flatMap arriving) s = .ret (s', l.written ++ w) ∧ s'.mode = true ∧
      s'.ctx.dev = { l.srv.ctx.dev with tokens := ts } ∧
      ∀ back : List (List Report), back.length = w.length → (∀ x ∈ w.zip back, Written defs' x.1 x.2) → ∀ buf,
        receive grow' defs' ((xs.flatMap (·.2)).map fun _ => 2) (back.flatMap arriving) buf =
          .ret ((xs.flatMap (·.2)).map fun p => .ok [.ok p, .error .eof]) := by
  obtain ⟨s', w, h1, h2, h3, h4⟩ := C85_over_reports_partial clock grow grow' defs defs' hg hg' hmax hmax' l.srv h requests hl hr hrep
  refine ⟨s', w, ?_, h2, h3, h4⟩
  have key : ∀ rs ∈ requests, Unhurt defs rs ∧ Settled (dataOf rs) := by
    intro rs hrs
    obtain ⟨i, hi, rfl⟩ := List.mem_iff_getElem.1 hrs
    have hz := hr (xs[i], requests[i]) (List.mem_iff_getElem.2 ⟨i, by simp; omega, by simp⟩)
    exact sentAs_unhurt hg hmax (p := ([xs[i].1], requests[i])) ⟨by simp, by simpa using hz.1, hz.2⟩
  rw [C123_recovers_partial devGeneral clock grow defs hg pre s l hpre requests (fun rs hrs => (key rs hrs).1)
    (fun rs hrs => (key rs hrs).2), h1, Out.bind_ret]

/-! ### where it fails -/

/-- RequestiPodName in a report. -/
abbrev askName : List Report := [⟨0x0A, 0x00, [0x55, 0x02, 0x00, 0x07, 0xF7]⟩]

/-- The same without its checksum. -/
abbrev askCut : List Report := [⟨0x0A, 0x00, [0x55, 0x02, 0x00, 0x07]⟩]

/-- The server, just started, after these reads. -/
abbrev since (reads : List ReadRes) : Out (Live DevGeneral × Bool) :=
  observed devGeneral (fun _ => ⟨2024, 1, 2, 3, 4⟩) (fun _ n => 2 * n) legacyReportDefs reads (Srv.init DevGeneral.zero)

/-- What the server writes, given these reads in a state. -/
abbrev said (reads : List ReadRes) (s : Srv DevGeneral) : Out (List Bytes) :=
  written (serve devGeneral (fun _ => ⟨2024, 1, 2, 3, 4⟩) (fun _ n => 2 * n) legacyReportDefs reads s)

/-- The answer. -/
abbrev nameAnswer : Bytes := [0x55, 0x0E, 0x00, 0x08, 0x69, 0x70, 0x6F, 0x64, 0x2D, 0x67, 0x61, 0x64, 0x67, 0x65, 0x74, 0x00, 0xA5]

/-- C123 fails for frames in which a packet goes beyond the end: on RequestiPodName without its checksum the server does nothing on a new
connection, but panics after a whole one, whose checksum is still in memory behind it. -/
theorem C123_fails : ∃ pre rs l, since pre = .ret (l, true) ∧ l.written = [nameAnswer] ∧ Unhurt legacyReportDefs rs ∧
    said (arriving rs) l.srv = .ret [] ∧ said (pre ++ arriving rs) (Srv.init DevGeneral.zero) = .panic := by
  have h1 : (since (arriving askName) >>= fun x => .ret x.2) = .ret true := by decide +kernel
  have h2 : (since (arriving askName) >>= fun x => said (arriving askCut) x.1.srv) = .ret [] := by decide +kernel
  have h3 : (since (arriving askName) >>= fun x => .ret x.1.written) = .ret [nameAnswer] := by decide +kernel
  have h4 : said (arriving askName ++ arriving askCut) (Srv.init DevGeneral.zero) = .panic := by decide +kernel
  cases h : since (arriving askName) with
  | panic => rw [h] at h1; cases h1
  | ret x =>
    obtain ⟨l, b⟩ := x
    rw [h, Out.bind_ret] at h1 h2 h3
    obtain rfl : b = true := Out.ret.inj h1
    refine ⟨arriving askName, askCut, l, h, Out.ret.inj h3, ⟨?_, .inl ⟨_, rfl, rfl⟩, by simp⟩, h2, h4⟩
    intro r hr
    rw [List.mem_singleton.1 hr]
    exact ⟨accepted_iff.2 ⟨⟨0x0A, 385, .accIn⟩, by decide +kernel, by decide, by decide +kernel⟩, by unfold Known; decide⟩

/-- A disturbance: a report too short to be one, a report of an unknown definition, the beginning of a frame, an error of the device. -/
def disturbance : List ReadRes :=
  [⟨[0x01], none⟩, ⟨[0xEE, 0x00, 0x55], none⟩, ⟨[0x0A, 0x02, 0x55, 0x02, 0x00], none⟩, ⟨[], some (.other 7)⟩,
    ⟨[0x0A, 0x02, 0x55, 0x20, 0x00], none⟩]

theorem askName_unhurt : Unhurt legacyReportDefs askName ∧ Settled (dataOf askName) := by
  refine ⟨⟨?_, .inl ⟨_, rfl, rfl⟩, by simp⟩, [[0x00, 0x07]], fun spare => ?_⟩
  · intro r hr
    rw [List.mem_singleton.1 hr]
    exact ⟨accepted_iff.2 ⟨⟨0x0A, 385, .accIn⟩, by decide +kernel, by decide, by decide +kernel⟩, by unfold Known; decide⟩
  · exact .packet (j := []) (w := [0x55, 0x02, 0x00, 0x07, 0xF7]) (rest := []) (by unfold Filler; decide)
      ⟨[0x02], 0xF7, .inl ⟨0x02, by decide, by decide, rfl⟩, by decide, by decide⟩ (.done (by unfold Filler; decide))

/-- Hypotheses of `C123_recovers_partial` and `C123_alike`: after the disturbance the question is answered. -/
example : said (disturbance ++ arriving askName) (Srv.init DevGeneral.zero) = .ret [nameAnswer] := by
  have h1 : (since disturbance >>= fun x => .ret x.2) = .ret true := by decide +kernel
  have h2 : (since disturbance >>= fun x => said (arriving askName) x.1.srv) = .ret [nameAnswer] := by decide +kernel
  have h3 : (since disturbance >>= fun x => .ret x.1.written) = .ret [] := by decide +kernel
  cases h : since disturbance with
  | panic => rw [h] at h1; cases h1
  | ret x =>
    obtain ⟨l, b⟩ := x
    rw [h, Out.bind_ret] at h1 h2 h3
    obtain rfl : b = true := Out.ret.inj h1
    have := C123_recovers_partial devGeneral (fun _ => ⟨2024, 1, 2, 3, 4⟩) (fun _ n => 2 * n) legacyReportDefs goodTable_legacy
      disturbance (Srv.init DevGeneral.zero) l h [askName] (by simpa using askName_unhurt.1) (by simpa using askName_unhurt.2)
    simp only [List.flatMap_cons, List.flatMap_nil, List.append_nil] at this
    unfold said at h2 ⊢
    rw [this, Out.ret.inj h3]
    cases he : serve devGeneral (fun _ => ⟨2024, 1, 2, 3, 4⟩) (fun _ n => 2 * n) legacyReportDefs (arriving askName) l.srv with
    | panic => rw [he] at h2; cases h2
    | ret y => rw [he] at h2; exact h2

/-- Hypotheses of `C123_packets_partial` and `C123_handshake_partial`: packets written by the library, reports from its encoder. -/
example : ∃ rs, SentAs defaultReportDefs ([[0x00, 0x07], [0x00, 0x09]], rs) := by
  obtain ⟨rs, h, _⟩ := C29_written defaultReportDefs goodTable_default (writePackets newPacketWriter [[0x00, 0x07], [0x00, 0x09]]) (by decide)
  exact ⟨rs, by simp, by simp [Sendable], h⟩

end Props
