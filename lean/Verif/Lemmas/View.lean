import Verif.Spec.View
import Verif.Lemmas.Server
import Verif.Props.Hid
import Verif.Props.Trace

/-! Lemmas about the trace viewer. -/

namespace Ipod.Trace
open Go Spec Ipod Ipod.Hid Props

/-- The reports of messages, as the report reader delivers them. -/
def rawOf (b : Bytes) : Except Err Report := rawReadReport ⟨b.take 1024, none⟩

theorem rawOf_eq (b : Bytes) : rawOf b = match reportOf b with
    | some r => .ok r
    | none => .error .noProgress := by
  simp only [rawOf, rawReadReport, reportOf, List.take_take, Nat.min_self]
  split <;> rename_i h
  · rw [h]
  · split
    · rename_i h2; split at h2
      · rename_i h3; exact absurd h3 (h _ _ _ _)
      · cases h2
    · rfl

theorem rawOf_ok {b : Bytes} {r : Report} : rawOf b = .ok r ↔ reportOf b = some r := by
  rw [rawOf_eq]; cases reportOf b <;> simp

theorem map_rawOf {bs : List Bytes} {rs : List Report} : bs.map rawOf = rs.map .ok ↔ bs.map reportOf = rs.map some := by
  induction bs generalizing rs with
  | nil => cases rs <;> simp
  | cons b bs ih =>
    cases rs with
    | nil => simp
    | cons r rs => simp only [List.map_cons, List.cons.injEq, rawOf_ok, ih]

theorem unfinished_cons {defs : List ReportDef} {b : Bytes} {r : Report} {bs : List Bytes} (h1 : reportOf b = some r)
    (h2 : ∃ x, Accepted defs r x) (h3 : ¬ Ends r) (h : Unfinished defs bs) : Unfinished defs (b :: bs) := by
  obtain ⟨rs, h4, h5⟩ := h
  refine ⟨r :: rs, by simp [h1, h4], ?_⟩
  intro x hx
  rcases List.mem_cons.1 hx with rfl | hx
  · exact ⟨h2, h3⟩
  · exact h5 x hx

/-- The result of `ReadFrame` without the memory behind the frame. -/
def plain : Except Err Slice → Except Err Bytes
  | .ok f => .ok f.data
  | .error e => .error e

/-- A call that does not deliver a frame. -/
theorem loop_error {grow : Growth} {defs : List ReportDef} (bs : List Bytes) (j : Nat) (buf : Slice)
    {rest : List (Except Err Report)} {b' : Slice} {e : Err}
    (h : readFrameLoop grow defs (bs.map rawOf ++ List.replicate j (.error .eof)) buf = .ret (rest, b', .error e)) :
    (e = .eof ∧ Unfinished defs bs) ∨
    (e ≠ .eof ∧ ∃ used bs', bs = used ++ bs' ∧ rest = bs'.map rawOf ++ List.replicate j (.error .eof) ∧
      OneCall defs used (.error e)) := by
  induction bs generalizing buf with
  | nil =>
    left
    refine ⟨?_, [], rfl, by intro r hr; cases hr⟩
    cases j with
    | zero => simp only [List.map_nil, List.replicate_zero, List.append_nil, readFrameLoop, Out.ret.injEq, Prod.mk.injEq,
        Except.error.injEq] at h; exact h.2.2.symm
    | succ j => simp only [List.map_nil, List.replicate_succ, List.nil_append, readFrameLoop, Out.ret.injEq, Prod.mk.injEq,
        Except.error.injEq] at h; exact h.2.2.symm
  | cons b bs ih =>
    rw [List.map_cons, List.cons_append] at h
    cases hb : reportOf b with
    | none =>
      rw [rawOf_eq, hb] at h
      simp only [readFrameLoop, Out.ret.injEq, Prod.mk.injEq, Except.error.injEq] at h
      obtain ⟨h1, _, rfl⟩ := h
      exact .inr ⟨by decide, [b], bs, rfl, h1.symm, .notReport (bs := []) ⟨[], rfl, by intro r hr; cases hr⟩ hb⟩
    | some r =>
      rw [rawOf_eq, hb] at h
      simp only at h
      cases hf : find defs r.id.toNat with
      | none =>
        simp only [readFrameLoop, hf, Out.ret.injEq, Prod.mk.injEq, Except.error.injEq] at h
        obtain ⟨h1, _, rfl⟩ := h
        exact .inr ⟨by decide, [b], bs, rfl, h1.symm,
          .unknown (bs := []) ⟨[], rfl, by intro r hr; cases hr⟩ hb (find_none.1 hf)⟩
      | some d =>
        by_cases hneg : d.maxPayload < 0
        · simp only [readFrameLoop, hf, if_pos hneg] at h; cases h
        have ha : Accepted defs r (r.data.take d.maxPayload.toNat) := accepted_iff.2 ⟨d, hf, by omega, rfl⟩
        rw [readFrameLoop_accepted grow defs r _ ha] at h
        by_cases he : Ends r
        · simp only [if_pos he, Out.ret.injEq, Prod.mk.injEq, reduceCtorEq, and_false] at h
        · simp only [if_neg he] at h
          rcases ih _ h with ⟨h1, h2⟩ | ⟨h1, used, bs', rfl, h3, h4⟩
          · exact .inl ⟨h1, unfinished_cons hb ⟨_, ha⟩ he h2⟩
          · refine .inr ⟨h1, b :: used, bs', rfl, h3, ?_⟩
            cases h4 with
            | notReport hu hn => exact .notReport (bs := b :: _) (unfinished_cons hb ⟨_, ha⟩ he hu) hn
            | unknown hu hs hn => exact .unknown (bs := b :: _) (unfinished_cons hb ⟨_, ha⟩ he hu) hs hn

/-- One call on the messages of a direction. -/
theorem readFrame_calls {grow : Growth} {defs : List ReportDef} (bs : List Bytes) (j : Nat) (buf : Slice)
    {rest : List (Except Err Report)} {b' : Slice} {x : Except Err Slice}
    (h : readFrame grow defs (bs.map rawOf ++ List.replicate j (.error .eof)) buf = .ret (rest, b', x)) :
    (x = .error .eof ∧ Unfinished defs bs) ∨
    (x ≠ .error .eof ∧ ∃ used bs', bs = used ++ bs' ∧ rest = bs'.map rawOf ++ List.replicate j (.error .eof) ∧
      OneCall defs used (plain x)) := by
  cases x with
  | error e =>
    rcases loop_error bs j _ h with ⟨rfl, h1⟩ | ⟨h1, h2⟩
    · exact .inl ⟨rfl, h1⟩
    · exact .inr ⟨by simpa using h1, h2⟩
  | ok f =>
    obtain ⟨us, h1, h2⟩ := (C33_delivered_iff grow defs _ rest buf f.data).1 ⟨b', f, h, rfl⟩
    refine .inr ⟨by simp, ?_⟩
    rcases List.append_eq_append_iff.1 h1 with ⟨a, h3, h4⟩ | ⟨c, h3, h4⟩
    · -- the reports used reach into the ends of file: then nothing of them is used
      have ha : a = [] := by
        cases a with
        | nil => rfl
        | cons y a =>
          have hy : y ∈ us.map (Except.ok (ε := Err)) := by rw [h3]; simp
          have hy' : y ∈ List.replicate j (Except.error (α := Report) Err.eof) := by rw [h4]; simp
          obtain ⟨r, _, rfl⟩ := List.mem_map.1 hy
          cases (List.mem_replicate.1 hy').2
      subst ha
      refine ⟨bs, [], by simp, by simpa using h4.symm, .frame (map_rawOf.1 (by simpa using h3.symm)) h2⟩
    · obtain ⟨l1, l2, h5, h6, h7⟩ := List.map_eq_append_iff.1 h3
      exact ⟨l1, l2, h5, by rw [h4, h7], .frame (map_rawOf.1 h6) h2⟩

theorem loop_pending {grow : Growth} {defs : List ReportDef} {bs : List Bytes} (h : Unfinished defs bs)
    (tail : List (Except Err Report)) (buf : Slice) :
    ∃ b', readFrameLoop grow defs (bs.map rawOf ++ tail) buf = readFrameLoop grow defs tail b' := by
  obtain ⟨rs, h1, h2⟩ := h
  rw [map_rawOf.2 h1]
  exact readFrameLoop_junk rs h2 tail buf

/-- A call ends where the specification says. -/
theorem oneCall_reads {grow : Growth} {defs : List ReportDef} {used : List Bytes} {r : Except Err Bytes}
    (h : OneCall defs used r) (tail : List (Except Err Report)) (buf : Slice) :
    ∃ b' x, readFrame grow defs (used.map rawOf ++ tail) buf = .ret (tail, b', x) ∧ plain x = r ∧ x ≠ .error .eof := by
  cases h with
  | @frame _ rs f h1 h2 =>
    obtain ⟨b', g, h3, h4⟩ := (C33_delivered_iff grow defs (rs.map .ok ++ tail) tail buf f).2 ⟨rs, rfl, h2⟩
    exact ⟨b', .ok g, by rw [map_rawOf.2 h1, h3], by rw [plain, h4], by simp⟩
  | @notReport bs b hu hb =>
    obtain ⟨b', h⟩ := loop_pending (grow := grow) hu (rawOf b :: tail) buf.reset
    refine ⟨b', .error .noProgress, ?_, rfl, by decide⟩
    rw [readFrame, List.map_append, List.append_assoc, List.map_cons, List.map_nil, List.singleton_append, h, rawOf_eq, hb]
    rfl
  | @unknown bs b r hu hb hn =>
    obtain ⟨b', h⟩ := loop_pending (grow := grow) hu (rawOf b :: tail) buf.reset
    refine ⟨b', .error Err.noReport, ?_, rfl, by decide⟩
    rw [readFrame, List.map_append, List.append_assoc, List.map_cons, List.map_nil, List.singleton_append, h, rawOf_eq, hb]
    simp only [readFrameLoop, find_none.2 hn]

theorem unfinished_reads {grow : Growth} {defs : List ReportDef} {bs : List Bytes} (h : Unfinished defs bs) (buf : Slice) :
    ∃ b', readFrame grow defs (bs.map rawOf) buf = .ret ([], b', .error .eof) := by
  obtain ⟨b', h⟩ := loop_pending (grow := grow) h [] buf.reset
  exact ⟨b', by rw [readFrame]; simpa [readFrameLoop] using h⟩

theorem oneCall_ne_nil {defs : List ReportDef} {used : List Bytes} {r : Except Err Bytes} (h : OneCall defs used r) :
    used ≠ [] := by
  cases h with
  | frame h1 h2 =>
    rintro rfl
    obtain ⟨⟨init, last, h3, _⟩, _⟩ := h2
    rw [h3] at h1
    simp at h1
  | notReport => simp
  | unknown => simp

theorem oneCall_unique {defs : List ReportDef} {used used' rest rest' : List Bytes} {r r' : Except Err Bytes}
    (h : OneCall defs used r) (h' : OneCall defs used' r') (e : used ++ rest = used' ++ rest') :
    used = used' ∧ rest = rest' ∧ r = r' := by
  obtain ⟨b, x, h1, h2, _⟩ := oneCall_reads (grow := fun _ n => n) h (rest.map rawOf) ⟨[], []⟩
  obtain ⟨b', x', h1', h2', _⟩ := oneCall_reads (grow := fun _ n => n) h' (rest'.map rawOf) ⟨[], []⟩
  rw [← List.map_append, e, List.map_append, h1'] at h1
  simp only [Out.ret.injEq, Prod.mk.injEq] at h1
  have hl : rest.length = rest'.length := by have := congrArg List.length h1.1; simpa using this.symm
  have hlu : used.length = used'.length := by have := congrArg List.length e; simp at this; omega
  obtain ⟨e1, e2⟩ := List.append_inj e hlu
  exact ⟨e1, e2, by rw [← h2, ← h2', h1.2.2]⟩

theorem oneCall_not_unfinished {defs : List ReportDef} {used rest : List Bytes} {r : Except Err Bytes}
    (h : OneCall defs used r) : ¬ Unfinished defs (used ++ rest) := by
  intro hu
  obtain ⟨b, x, h1, h2, h3⟩ := oneCall_reads (grow := fun _ n => n) h (rest.map rawOf) ⟨[], []⟩
  obtain ⟨b', h4⟩ := unfinished_reads (grow := fun _ n => n) hu ⟨[], []⟩
  rw [List.map_append, h1] at h4
  simp only [Out.ret.injEq, Prod.mk.injEq] at h4
  exact h3 h4.2.2

/-! ### the queue -/

theorem taken_prefix {d : Trace.Dir} {a b : List Msg} (ha : ∀ m ∈ a, m.dir ≠ d) {bs : List Bytes} {ms : List Msg}
    (h : Taken d bs (a ++ b) ms) : ∃ b', ms = a ++ b' ∧ Taken d bs b b' := by
  induction a generalizing ms with
  | nil => exact ⟨ms, rfl, h⟩
  | cons m a ih =>
    rw [List.cons_append] at h
    cases h with
    | nil => exact ⟨b, rfl, .nil⟩
    | take hd _ => exact absurd hd (ha m (by simp))
    | skip hd h =>
      obtain ⟨b', rfl, h2⟩ := ih (fun x hx => ha x (by simp [hx])) h
      exact ⟨b', rfl, h2⟩

theorem taken_step {d : Trace.Dir} {a b : List Msg} (ha : ∀ m ∈ a, m.dir ≠ d) {p : Msg} (hp : p.dir = d) {bs : List Bytes}
    {ms : List Msg} (h : Taken d bs (a ++ b) ms) : Taken d (p.data :: bs) (a ++ p :: b) ms := by
  obtain ⟨b', rfl, h2⟩ := taken_prefix ha h
  clear h
  induction a with
  | nil => exact .take hp h2
  | cons m a ih => exact .skip (ha m (by simp)) (ih (fun x hx => ha x (by simp [hx])))

/-- `n` reads of one direction. -/
theorem queueReads_rel {mem : Ptr → Msg} {d : Trace.Dir} (hd : d = 0 ∨ d = 1) (n : Nat) {q : Queue} {l : List Ptr}
    (h : QRel mem q l) :
    let bs := ofDir d (l.map mem)
    ∃ q' l', queueReads mem d n q = .ret (q', ((bs.take n).map fun b => ⟨b.take 1024, none⟩) ++
        List.replicate (n - bs.length) ⟨[], some .eof⟩) ∧ QRel mem q' l' ∧
      Taken d (bs.take n) (l.map mem) (l'.map mem) ∧ l'.length + min n bs.length = l.length := by
  induction n generalizing q l with
  | zero => exact ⟨q, l, by simp [queueReads], h, by simpa using Taken.nil, by simp⟩
  | succ n ih =>
    intro bs
    obtain ⟨q1, h1, h2⟩ := queueStep_rel h (.dequeueDir d) hd
    simp only [queueStep, queueSpec] at h1 h2
    cases hf : l.find? (fun p => (mem p).dir = d) with
    | none =>
      have hnone : ∀ p ∈ l, (mem p).dir ≠ d := by simpa using hf
      have hbs : bs = [] := by
        simp only [bs, ofDir]
        rw [List.filter_eq_nil_iff.2 (by simpa using hnone)]
        rfl
      rw [List.eraseP_of_forall_not (by simpa using hnone)] at h2
      obtain ⟨q', l', h3, h4, h5, h6⟩ := ih h2
      refine ⟨q', l', ?_, h4, ?_, ?_⟩
      · rw [queueReads, queueDirRead, h1, hf]
        simp only [Out.bind_ret, h3]
        change ofDir d (l.map mem) = [] at hbs
        simp [bs, hbs, List.replicate_succ]
      · change ofDir d (l.map mem) = [] at hbs
        rw [hbs] at h5
        simp only [bs, hbs]
        simpa using h5
      · change ofDir d (l.map mem) = [] at hbs
        rw [hbs] at h6
        simp only [bs, hbs]
        simpa using h6
    | some p =>
      obtain ⟨hp, a, b, rfl, ha⟩ := List.find?_eq_some_iff_append.1 hf
      have hp : (mem p).dir = d := by simpa using hp
      have ha : ∀ x ∈ a, (mem x).dir ≠ d := by simpa using ha
      have her : (a ++ p :: b).eraseP (fun p => (mem p).dir = d) = a ++ b := by
        rw [List.eraseP_append_right _ (by simpa using ha), List.eraseP_cons_of_pos (by simpa using hp)]
      rw [her] at h2
      obtain ⟨q', l', h3, h4, h5, h6⟩ := ih h2
      have hbs : bs = (mem p).data :: ofDir d ((a ++ b).map mem) := by
        have hn : (a.map mem).filter (fun m => decide (m.dir = d)) = [] := List.filter_eq_nil_iff.2 (by simpa using ha)
        simp [bs, ofDir, List.filter_append, hn, hp]
      refine ⟨q', l', ?_, h4, ?_, ?_⟩
      · rw [queueReads, queueDirRead, h1, hf]
        simp only [Out.bind_ret, h3, hbs, List.take_succ_cons, List.map_cons, List.cons_append, List.length_cons,
          Nat.add_sub_add_right]
      · rw [hbs, List.take_succ_cons]
        have : ∀ m ∈ a.map mem, m.dir ≠ d := by simpa using ha
        have h5' : Taken d ((ofDir d ((a ++ b).map mem)).take n) (a.map mem ++ b.map mem) (l'.map mem) := by
          rw [← List.map_append]; exact h5
        have h7 := taken_step this hp h5'
        rw [← List.map_cons, ← List.map_append] at h7
        exact h7
      · rw [hbs]
        simp only [List.length_cons, List.length_append] at h6 ⊢
        omega

/-- `ReadFrame` on the queue. -/
theorem readFrameQueue_rel {grow : Growth} {defs : List ReportDef} {mem : Ptr → Msg} {d : Trace.Dir} (hd : d = 0 ∨ d = 1)
    {q : Queue} {l : List Ptr} (h : QRel mem q l) :
    readFrameQueue grow defs mem d q = .panic ∨
    (∃ q', readFrameQueue grow defs mem d q = .ret (q', .error .eof) ∧ Unfinished defs (ofDir d (l.map mem))) ∨
    (∃ q' l' x used, readFrameQueue grow defs mem d q = .ret (q', x) ∧ x ≠ .error .eof ∧ OneCall defs used (plain x) ∧
      QRel mem q' l' ∧ Taken d used (l.map mem) (l'.map mem) ∧ l'.length < l.length) := by
  have hq : q.all.length = l.length := by rw [← h.all, List.length_map]
  obtain ⟨q1, l1, h1, _, _, h6⟩ := queueReads_rel hd q.all.length h
  have hle : (ofDir d (l.map mem)).length ≤ l.length := by
    simp only [ofDir, List.length_map]
    exact Nat.le_trans (List.length_filter_le _ _) (by simp)
  rw [hq, List.take_of_length_le hle] at h1
  have hraw : ((ofDir d (l.map mem)).map (fun b : Bytes => (⟨b.take 1024, none⟩ : ReadRes)) ++
      List.replicate (l.length - (ofDir d (l.map mem)).length) (⟨[], some .eof⟩ : ReadRes)).map rawReadReport =
      (ofDir d (l.map mem)).map rawOf ++ List.replicate (l.length - (ofDir d (l.map mem)).length) (.error .eof) := by
    rw [List.map_append, List.map_replicate, List.map_map]; rfl
  rw [readFrameQueue, hq, h1]
  simp only [Out.bind_ret, hraw]
  cases hr : readFrame grow defs ((ofDir d (l.map mem)).map rawOf ++
      List.replicate (l.length - (ofDir d (l.map mem)).length) (.error .eof)) ⟨[], []⟩ with
  | panic => exact .inl rfl
  | ret y =>
    obtain ⟨rest, b', x⟩ := y
    right
    simp only [Out.bind_ret]
    rcases readFrame_calls _ _ _ hr with ⟨rfl, hu⟩ | ⟨hx, used, bs', e, hrest, hc⟩
    · obtain ⟨q', l', h7, _⟩ := queueReads_rel hd (((ofDir d (l.map mem)).map (fun b : Bytes => (⟨b.take 1024, none⟩ : ReadRes)) ++
        List.replicate (l.length - (ofDir d (l.map mem)).length) (⟨[], some .eof⟩ : ReadRes)).length - rest.length) h
      exact .inl ⟨q', by rw [h7]; rfl, hu⟩
    · have hk : ((ofDir d (l.map mem)).map (fun b : Bytes => (⟨b.take 1024, none⟩ : ReadRes)) ++
        List.replicate (l.length - (ofDir d (l.map mem)).length) (⟨[], some .eof⟩ : ReadRes)).length - rest.length = used.length := by
        rw [hrest]
        simp only [List.length_append, List.length_map, List.length_replicate]
        have := congrArg List.length e
        simp only [List.length_append] at this
        omega
      rw [hk]
      obtain ⟨q', l', h7, h8, h9, h10⟩ := queueReads_rel hd used.length h
      have ht : (ofDir d (l.map mem)).take used.length = used := by rw [e]; simp
      rw [ht] at h9
      refine .inr ⟨q', l', x, used, by rw [h7]; rfl, hx, hc, h8, h9, ?_⟩
      have := List.length_pos_iff.2 (oneCall_ne_nil hc)
      have h11 := congrArg List.length e
      simp only [List.length_append] at h11
      omega

theorem readFrameQueue_no_panic {grow : Growth} {defs : List ReportDef} (hdefs : ∀ d ∈ defs, 1 ≤ d.len) {mem : Ptr → Msg}
    {d : Trace.Dir} (hd : d = 0 ∨ d = 1) {q : Queue} {l : List Ptr} (h : QRel mem q l) :
    readFrameQueue grow defs mem d q ≠ .panic := by
  obtain ⟨q1, l1, h1, _⟩ := queueReads_rel hd q.all.length h
  rw [readFrameQueue, h1]
  simp only [Out.bind_ret]
  generalize List.map rawReadReport _ = rs
  cases hr : readFrame grow defs rs ⟨[], []⟩ with
  | panic => exact absurd hr (Props.C33_no_panic grow defs hdefs rs _)
  | ret x =>
    simp only [Out.bind_ret]
    generalize _ - x.1.length = n
    obtain ⟨q2, l2, h2, _⟩ := queueReads_rel hd n h
    rw [h2]
    simp

/-- The loop of the viewer. -/
theorem dumpLoop_rel {grow : Growth} {defs : List ReportDef} {mem : Ptr → Msg} (fuel : Nat) {q : Queue} {l : List Ptr}
    (h : QRel mem q l) (hf : l.length < fuel) (mode : Bool) :
    dumpLoop grow defs mem fuel q mode = .panic ∨
    ∃ evs, dumpLoop grow defs mem fuel q mode = .ret (some evs) ∧
      Viewing defs (l.map mem) (evs.map fun e => (e.dir, e.frame)) ∧ ShownCmds mode evs := by
  induction fuel generalizing q l mode with
  | zero => omega
  | succ fuel ih =>
    have hhead : q.head = l.head? := by rw [Queue.head, ← h.all, List.head?_map]
    cases l with
    | nil =>
      right
      refine ⟨[], ?_, .done, .nil⟩
      rw [dumpLoop, hhead]
      rfl
    | cons p l =>
      have hd : (mem p).dir = 0 ∨ (mem p).dir = 1 := by
        have : p ∈ q.all.map (·.msg) := by rw [h.all]; simp
        obtain ⟨i, hi, rfl⟩ := List.mem_map.1 this
        exact h.valid i hi
      rw [dumpLoop, hhead]
      simp only [List.head?_cons]
      rcases readFrameQueue_rel (grow := grow) (defs := defs) hd h with h1 | ⟨q', h1, h2⟩ | ⟨q', l', x, used, h1, h2, h3, h4, h5, h6⟩
      · left; rw [h1]; rfl
      · right
        rw [h1]
        exact ⟨[], rfl, .cut h2, .nil⟩
      · rw [h1]
        simp only [Out.bind_ret]
        simp only [List.length_cons] at hf h6
        cases x with
        | error e =>
          simp only [if_neg (show ¬ e = .eof from fun he => h2 (by rw [he]))]
          rcases ih h4 (by omega) mode with h7 | ⟨evs, h7, h8, h9⟩
          · left; rw [h7]; rfl
          · right
            rw [h7]
            exact ⟨_, rfl, .frame h3 h5 h8, .error h9⟩
        | ok f =>
          simp only
          obtain ⟨ps, b, hs⟩ := scan_total f.spare f.data
          have hrc := readCommands_scan hs mode
          cases hy : readCommands mode f with
          | panic => left; rfl
          | ret y =>
            have hb : b = false ∧ Decoded mode ps y.1 y.2 := by
              rw [show (⟨f.data, f.spare⟩ : Slice) = f from rfl, hy] at hrc
              cases hdc : decodeAll mode ps with
              | panic => rw [hdc] at hrc; cases hrc
              | ret z =>
                rw [hdc] at hrc
                cases b with
                | true => cases hrc
                | false =>
                  simp only [Out.bind_ret, Bool.false_eq_true, if_false, Out.ret.injEq] at hrc
                  exact ⟨rfl, by rw [hrc]; exact decodeAll_ret.1 hdc⟩
            obtain ⟨rfl, hdec⟩ := hb
            simp only [Out.bind_ret]
            rcases ih h4 (by omega) y.1 with h7 | ⟨evs, h7, h8, h9⟩
            · left; rw [h7]; rfl
            · right
              rw [h7]
              exact ⟨_, rfl, .frame h3 h5 h8, .frame hs hdec h9⟩

end Ipod.Trace
