import Verif.Lemmas.EffectsPlain

/-! The handlers of the other lingos only write (and one asks for the time). -/

namespace Ipod.Effects
open Go Spec.Effects

/-- The course consists of writing `cmds`. -/
def Writes (cmds : List Command) (es : List Event) : Prop :=
  ∃ errs : List (Option Err), errs.length = cmds.length ∧ es = wroteAll cmds errs

theorem writes_nil (es : List Event) : Writes [] es ↔ es = [] := by
  constructor
  · rintro ⟨errs, _, rfl⟩; rfl
  · rintro rfl; exact ⟨[], rfl, rfl⟩

theorem writes_one (x : Command) (es : List Event) :
    Writes [x] es ↔ ∃ e : Option Err, es = [⟨.writeCommand x, some e⟩] := by
  constructor
  · rintro ⟨errs, hl, rfl⟩
    match errs, hl with
    | [e], _ => exact ⟨e, rfl⟩
  · rintro ⟨e, rfl⟩; exact ⟨[e], rfl, rfl⟩

theorem respond_writes (req : Command) (t : TypeId) (v : t.Val) (es : List Event) :
    Done (respond req t v) es () ↔ Writes [⟨t.id, req.trx, .ptr t v⟩] es := by
  rw [done_respond, writes_one]

theorem put_out {σ : Type} (c : Ctx σ) (x : Command) : (put c x).out = c.out ++ [x] := rfl

theorem ext_writes (req : Command) (es : List Event) :
    Done (handleExtRemote req) es () ↔ ∃ c, Ipod.handleExtRemote req blank = .ret c ∧ Writes c.out es := by
  have hn : ∀ (p : Prog Unit) (o : Out (Ctx Unit)), p = .ret () → o = .ret blank →
      (Done p es () ↔ ∃ c, o = .ret c ∧ Writes c.out es) := by
    rintro p o rfl rfl
    rw [done_ret]
    constructor
    · rintro ⟨h, _⟩; exact ⟨_, rfl, (writes_nil es).2 h⟩
    · rintro ⟨c, hc, h⟩; cases hc; exact ⟨(writes_nil es).1 h, rfl⟩
  have hr : ∀ (p : Prog Unit) (o : Out (Ctx Unit)) (t : TypeId) (v : t.Val), p = respond req t v → o = blank.respond req t v →
      (Done p es () ↔ ∃ c, o = .ret c ∧ Writes c.out es) := by
    rintro p o t v rfl rfl
    rw [respond_writes, ctx_respond]
    constructor
    · intro h; exact ⟨_, rfl, h⟩
    · rintro ⟨c, hc, h⟩; cases hc; exact h
  unfold handleExtRemote Ipod.handleExtRemote
  match req.payload with
  | .nil => exact hn _ _ rfl rfl
  | .unknown b => exact hn _ _ rfl rfl
  | .ptr (.ext g) v =>
    cases g <;> first
    | exact hn _ _ rfl rfl
    | exact hr _ _ _ _ rfl rfl
  | .ptr (.sim _) _ => exact hn _ _ rfl rfl
  | .ptr (.disp _) _ => exact hn _ _ rfl rfl
  | .ptr (.gen _) _ => exact hn _ _ rfl rfl
  | .ptr (.aud _) _ => exact hn _ _ rfl rfl

theorem audio_writes (req : Command) (es : List Event) :
    Done (handleAudio req) es () ↔ ∃ c, Ipod.handleAudio req blank = .ret c ∧ Writes c.out es := by
  have hn : ∀ (p : Prog Unit) (o : Out (Ctx Unit)), p = .ret () → o = .ret blank →
      (Done p es () ↔ ∃ c, o = .ret c ∧ Writes c.out es) := by
    rintro p o rfl rfl
    rw [done_ret]
    constructor
    · rintro ⟨h, _⟩; exact ⟨_, rfl, (writes_nil es).2 h⟩
    · rintro ⟨c, hc, h⟩; cases hc; exact ⟨(writes_nil es).1 h, rfl⟩
  have hr : ∀ (p : Prog Unit) (o : Out (Ctx Unit)) (t : TypeId) (v : t.Val), p = respond req t v → o = blank.respond req t v →
      (Done p es () ↔ ∃ c, o = .ret c ∧ Writes c.out es) := by
    rintro p o t v rfl rfl
    rw [respond_writes, ctx_respond]
    constructor
    · intro h; exact ⟨_, rfl, h⟩
    · rintro ⟨c, hc, h⟩; cases hc; exact h
  unfold handleAudio Ipod.handleAudio
  match req.payload with
  | .nil => exact hn _ _ rfl rfl
  | .unknown b => exact hn _ _ rfl rfl
  | .ptr (.aud g) v =>
    cases g <;> first
    | exact hn _ _ rfl rfl
    | exact hr _ _ _ _ rfl rfl
  | .ptr (.sim _) _ => exact hn _ _ rfl rfl
  | .ptr (.disp _) _ => exact hn _ _ rfl rfl
  | .ptr (.gen _) _ => exact hn _ _ rfl rfl
  | .ptr (.ext _) _ => exact hn _ _ rfl rfl

/-- What is to be shown of the display remote lingo. -/
def DispCourse (req : Command) (es : List Event) (text : Option Bytes) : Prop :=
  ∃ (now : Time) (pre post : List Event) (c : Ctx Unit), Ipod.handleDispRemote (fun _ => now) req blank = .ret c ∧
    Writes c.out post ∧ es = pre ++ post ∧ (AsksTime req → pre = [got .now now]) ∧ (¬ AsksTime req → pre = []) ∧
    (UnknownInfo req → text = some (ascii "unknown info type")) ∧ (¬ UnknownInfo req → text = none)

theorem done_done (p : Prog Unit) (es : List Event) (t : Option Bytes) : Done (done p) es t ↔ Done p es () ∧ t = none := by
  unfold done
  rw [done_bind]
  constructor
  · rintro ⟨es1, a, es2, rfl, h1, h2⟩
    rw [done_ret] at h2
    obtain ⟨rfl, rfl⟩ := h2
    exact ⟨by simpa using h1, rfl⟩
  · rintro ⟨h, rfl⟩
    exact ⟨es, (), [], by simp, h, (done_ret _ _ _).2 ⟨rfl, rfl⟩⟩

theorem state_none {ty : UInt8} (now : Time) : dispStateInfo ty now = none ↔ (ty.toNat = 10 ∨ 16 < ty.toNat) := by
  unfold dispStateInfo
  split
  all_goals first
    | (rename_i hs; exact ⟨by simp, by omega⟩)
    | (simp only [imp_false] at *; constructor
       · intro _; omega
       · intro _; trivial)

theorem track_none' {ty : UInt8} : dispTrackInfo ty = none ↔ 8 < ty.toNat := by
  unfold dispTrackInfo
  split
  all_goals first
    | (rename_i hs; exact ⟨by simp, by omega⟩)
    | (simp only [imp_false] at *; constructor
       · intro _; omega
       · intro _; trivial)

theorem disp_course (req : Command) (es : List Event) (text : Option Bytes) :
    Done (handleDispRemote req) es text ↔ DispCourse req es text := by
  -- a request that is neither about the state nor about a track
  have ordinary : ∀ {t v}, req.payload = .ptr t v → t ≠ .disp .GetiPodStateInfo → t ≠ .disp .GetIndexedPlayingTrackInfo →
      ¬ AsksTime req ∧ ¬ UnknownInfo req := by
    intro t v hp h1 h2
    refine ⟨?_, ?_⟩
    · rintro ⟨u, hu⟩; rw [hp] at hu; injection hu with ht _; exact h1 ht
    · rintro (⟨ty, u, hu, _⟩ | ⟨ty, u, hu, _⟩)
      · rw [hp] at hu; injection hu with ht _; exact h1 ht
      · rw [hp] at hu; injection hu with ht _; exact h2 ht
  have hn : ∀ (p : Prog (Option Bytes)), handleDispRemote req = p → p = .ret none →
      (∀ now, Ipod.handleDispRemote (fun _ => now) req blank = .ret blank) →
      ¬ AsksTime req ∧ ¬ UnknownInfo req →
      (Done (handleDispRemote req) es text ↔ DispCourse req es text) := by
    rintro p hp rfl ho ⟨ht, hu⟩
    rw [hp, done_ret]
    constructor
    · rintro ⟨rfl, rfl⟩
      exact ⟨⟨0, 0, 0, 0, 0⟩, [], [], blank, ho _, (writes_nil _).2 rfl, rfl, (absurd · ht), fun _ => rfl, (absurd · hu), fun _ => rfl⟩
    · rintro ⟨now, pre, post, c, hc, hw, rfl, -, hpre, -, htx⟩
      rw [ho] at hc
      cases hc
      rw [(writes_nil _).1 hw, hpre ht]
      exact ⟨rfl, htx hu⟩
  have hr : ∀ (t : TypeId) (v : t.Val), handleDispRemote req = done (respond req t v) →
      (∀ now, Ipod.handleDispRemote (fun _ => now) req blank = blank.respond req t v) →
      ¬ AsksTime req ∧ ¬ UnknownInfo req →
      (Done (handleDispRemote req) es text ↔ DispCourse req es text) := by
    rintro t v hp ho ⟨ht, hu⟩
    rw [hp, done_done, respond_writes]
    constructor
    · rintro ⟨hw, rfl⟩
      refine ⟨⟨0, 0, 0, 0, 0⟩, [], es, put blank ⟨t.id, req.trx, .ptr t v⟩, ?_, hw, rfl, (absurd · ht), fun _ => rfl,
        (absurd · hu), fun _ => rfl⟩
      rw [ho, ctx_respond]
    · rintro ⟨now, pre, post, c, hc, hw, rfl, -, hpre, -, htx⟩
      rw [ho, ctx_respond] at hc
      cases hc
      rw [hpre ht]
      exact ⟨hw, htx hu⟩
  -- a request with an unknown info type
  have hu : handleDispRemote req = .ret (some unknownInfoText) →
      (∀ now, Ipod.handleDispRemote (fun _ => now) req blank = .ret blank) → ¬ AsksTime req → UnknownInfo req →
      (Done (handleDispRemote req) es text ↔ DispCourse req es text) := by
    rintro hp ho ht hu
    rw [hp, done_ret]
    constructor
    · rintro ⟨rfl, rfl⟩
      exact ⟨⟨0, 0, 0, 0, 0⟩, [], [], blank, ho _, (writes_nil _).2 rfl, rfl, (absurd · ht), fun _ => rfl, fun _ => rfl, (absurd hu ·)⟩
    · rintro ⟨now, pre, post, c, hc, hw, rfl, -, hpre, htx, -⟩
      rw [ho] at hc
      cases hc
      rw [(writes_nil _).1 hw, hpre ht]
      exact ⟨rfl, htx hu⟩
  have state : ∀ ty u, req.payload = .ptr (.disp .GetiPodStateInfo) (ty, u) →
      (Done (handleDispRemote req) es text ↔ DispCourse req es text) := by
    intro ty u hp
    have nt : ∀ {ty' u'}, ¬ req.payload = .ptr (.disp .GetIndexedPlayingTrackInfo) (ty', u') := by
      intro ty' u' h; rw [hp] at h; injection h with h _; injection h with h; cases h
    have hs : ∀ {ty' u'}, req.payload = .ptr (.disp .GetiPodStateInfo) (ty', u') → ty' = ty := by
      intro ty' u' h; rw [hp] at h; injection h with _ h; cases h; rfl
    have e1 : handleDispRemote req = dispState req ty := by simp only [handleDispRemote, hp]
    by_cases h9 : ty = 9
    · subst h9
      have e2 : dispState req 9 = .call .now fun (d : Time) =>
          done (respond req (.disp .RetiPodStateInfo) (9, .dateTime d.year d.month d.day d.hour d.minute, ())) := if_pos rfl
      have e3 : ∀ now : Time, Ipod.handleDispRemote (fun _ => now) req blank = { blank with ticks := 1 }.respond req
          (.disp .RetiPodStateInfo) (9, .dateTime now.year now.month now.day now.hour now.minute, ()) := by
        intro now
        simp only [Ipod.handleDispRemote, hp]
        rfl
      have ht : AsksTime req := ⟨u, hp⟩
      have hk : ¬ UnknownInfo req := by
        rintro (⟨ty', u', h, hb⟩ | ⟨ty', u', h, hb⟩)
        · cases hs h; revert hb; decide
        · exact nt h
      rw [e1, e2, done_call]
      constructor
      · rintro ⟨now, es', rfl, h⟩
        rw [done_done, respond_writes] at h
        obtain ⟨hw, rfl⟩ := h
        exact ⟨now, [got .now now], es', _, (e3 now).trans (ctx_respond ..), hw, rfl, fun _ => rfl, (absurd ht ·), (absurd · hk),
          fun _ => rfl⟩
      · rintro ⟨now, pre, post, c, hc, hw, rfl, hpre, -, -, htx⟩
        rw [e3, ctx_respond] at hc
        cases hc
        refine ⟨now, post, ?_, ?_⟩
        · rw [hpre ht]; rfl
        · rw [done_done, respond_writes]; exact ⟨hw, htx hk⟩
    · have ht : ¬ AsksTime req := by rintro ⟨u', h⟩; exact h9 (hs h).symm
      have e2 : dispState req ty = match dispStateInfo ty ⟨0, 0, 0, 0, 0⟩ with
          | none => .ret (some unknownInfoText)
          | some info => done (respond req (.disp .RetiPodStateInfo) (ty, info, ())) := if_neg h9
      match hi : dispStateInfo ty ⟨0, 0, 0, 0, 0⟩ with
      | none =>
        rw [hi] at e2
        refine hu (e1.trans e2) ?_ ht (.state ty u hp ((state_none _).1 hi))
        intro now
        rw [stateInfo_time ty h9 _ now] at hi
        simp only [Ipod.handleDispRemote, hp, hi]
      | some info =>
        rw [hi] at e2
        refine hr _ _ (e1.trans e2) ?_ ⟨ht, ?_⟩
        · intro now
          rw [stateInfo_time ty h9 _ now] at hi
          simp only [Ipod.handleDispRemote, hp, hi, if_neg h9]
        · rintro (⟨ty', u', h, hb⟩ | ⟨ty', u', h, hb⟩)
          · cases hs h; rw [(state_none _).2 hb] at hi; cases hi
          · exact nt h
  have track : ∀ ty u, req.payload = .ptr (.disp .GetIndexedPlayingTrackInfo) (ty, u) →
      (Done (handleDispRemote req) es text ↔ DispCourse req es text) := by
    intro ty u hp
    have nt : ∀ {ty' u'}, ¬ req.payload = .ptr (.disp .GetiPodStateInfo) (ty', u') := by
      intro ty' u' h; rw [hp] at h; injection h with h _; injection h with h; cases h
    have hs : ∀ {ty' u'}, req.payload = .ptr (.disp .GetIndexedPlayingTrackInfo) (ty', u') → ty' = ty := by
      intro ty' u' h; rw [hp] at h; injection h with _ h; cases h; rfl
    have e1 : handleDispRemote req = dispTrack req ty := by simp only [handleDispRemote, hp]
    have ht : ¬ AsksTime req := by rintro ⟨u', h⟩; exact nt h
    match hi : dispTrackInfo ty with
    | none =>
      have e2 : dispTrack req ty = .ret (some unknownInfoText) := by unfold dispTrack; rw [hi]
      refine hu (e1.trans e2) ?_ ht (.track ty u hp (track_none'.1 hi))
      intro now
      simp only [Ipod.handleDispRemote, hp, hi]
    | some info =>
      have e2 : dispTrack req ty = done (respond req (.disp .RetIndexedPlayingTrackInfo) (ty, info, ())) := by
        unfold dispTrack; rw [hi]
      refine hr _ _ (e1.trans e2) ?_ ⟨ht, ?_⟩
      · intro now
        simp only [Ipod.handleDispRemote, hp, hi]
      · rintro (⟨ty', u', h, hb⟩ | ⟨ty', u', h, hb⟩)
        · exact nt h
        · cases hs h; rw [track_none'.2 hb] at hi; cases hi
  match hp : req.payload with
  | .nil =>
    refine hn _ rfl (by simp only [handleDispRemote, hp]) (fun now => by simp only [Ipod.handleDispRemote, hp]) ⟨?_, ?_⟩
    · rintro ⟨u, h⟩; rw [hp] at h; cases h
    · rintro (⟨ty, u, h, _⟩ | ⟨ty, u, h, _⟩) <;> (rw [hp] at h; cases h)
  | .unknown b =>
    refine hn _ rfl (by simp only [handleDispRemote, hp]) (fun now => by simp only [Ipod.handleDispRemote, hp]) ⟨?_, ?_⟩
    · rintro ⟨u, h⟩; rw [hp] at h; cases h
    · rintro (⟨ty, u, h, _⟩ | ⟨ty, u, h, _⟩) <;> (rw [hp] at h; cases h)
  | .ptr (.disp g) v =>
    cases g <;> first
    | exact state _ _ hp
    | exact track _ _ hp
    | (refine hn (.ret none) ?_ rfl ?_ (ordinary hp (by simp) (by simp))
       · unfold handleDispRemote; rw [hp]
       · intro now; unfold Ipod.handleDispRemote; rw [hp])
    | (refine hr ?_ ?_ ?_ ?_ (ordinary hp (by simp) (by simp))
       rotate_left 2
       · unfold handleDispRemote; rw [hp] <;> exact rfl
       · intro now; unfold Ipod.handleDispRemote; rw [hp] <;> exact rfl)
  | .ptr (.sim _) _ =>
    exact hn _ rfl (by simp only [handleDispRemote, hp]) (fun now => by simp only [Ipod.handleDispRemote, hp]) (ordinary hp (by simp) (by simp))
  | .ptr (.ext _) _ =>
    exact hn _ rfl (by simp only [handleDispRemote, hp]) (fun now => by simp only [Ipod.handleDispRemote, hp]) (ordinary hp (by simp) (by simp))
  | .ptr (.gen _) _ =>
    exact hn _ rfl (by simp only [handleDispRemote, hp]) (fun now => by simp only [Ipod.handleDispRemote, hp]) (ordinary hp (by simp) (by simp))
  | .ptr (.aud _) _ =>
    exact hn _ rfl (by simp only [handleDispRemote, hp]) (fun now => by simp only [Ipod.handleDispRemote, hp]) (ordinary hp (by simp) (by simp))

end Ipod.Effects
