import Verif.Props.RacersParts
import Verif.Props.Listeners

/-! # Property C126: frames in order, with a lock, statement by statement -/

namespace Props
open Go Spec Ipod Ipod.Hid

theorem eachPadded_zip : ∀ (frames : List Bytes) (pads : List Bytes), pads.length = frames.length → (∀ pad ∈ pads, Zeros pad) →
    EachPadded frames (List.zipWith (fun f pad => f ++ pad) frames pads)
  | [], _, _, _ => .nil
  | _ :: _, [], h, _ => by simp at h
  | f :: frames, pad :: pads, h, hz =>
    .cons (hz pad (.head _)) (eachPadded_zip frames pads (by simpa using h) fun p hp => hz p (.tail _ hp))

/-- C126, with a lock held during each call, statement by statement: the calls return the frames that were sent, each once and in the order
in which they were sent, each with zeros after it, and `io.EOF` only after the last. -/
theorem C126_exclusion_order (grow : Growth) (defs : List ReportDef) (hg : GoodTable defs) (sent : List (Bytes × List Report))
    (h : ∀ p ∈ sent, p.1 ≠ [] ∧ Written defs p.1 p.2) (n : Nat) (schedule : List Nat)
    (he : Excluding grow defs (Racers.start n (sent.flatMap fun p => p.2.map .ok)) schedule) :
    InOrder (sent.map (·.1)) ((Racers.start n (sent.flatMap fun p => p.2.map .ok)).run grow defs schedule).returned := by
  have h1 := C126_exclusion grow defs n _ schedule he
  generalize ((Racers.start n (sent.flatMap fun p => p.2.map .ok)).run grow defs schedule).returned = ret at *
  obtain ⟨pads, p1, p2, p3⟩ := C29_frames_roundtrip grow defs hg sent h ⟨[], []⟩ ret.length
  rw [Nat.add_comm] at p3
  have h2 := readFrames_first p3
  rw [h1] at h2
  injection h2 with h2
  refine ⟨(sent.map (·.1)).take ret.length, (sent.map (·.1)).drop ret.length,
    (List.zipWith (fun f pad => f ++ pad) (sent.map (·.1)) pads).take ret.length, ret.length - sent.length, by simp, ?_, ?_, ?_⟩
  · rw [List.take_zipWith]
    exact eachPadded_zip _ _ (by simp [p1]) fun p hp => p2 p (List.mem_of_mem_take hp)
  · rw [h2, List.take_append, List.take_replicate]
    congr 1
    · rw [List.map_take, List.zipWith_map_left, List.map_zipWith]
    · congr 1
      simp [p1]
  · intro hk
    exact List.drop_eq_nil_of_le (by simp; omega)

/-- Two goroutines that exclude each other, a frame of two reports: the second goroutine gets it. -/
example : InOrder [[1, 2, 3]] ((Racers.start 2 [.ok ⟨1, 2, [1, 2]⟩, .ok ⟨1, 1, [3, 0]⟩]).run (fun _ n => 2 * n) [⟨1, 3, .accIn⟩]
    [1, 1, 1, 1, 1, 1, 1, 1, 0]).returned :=
  C126_exclusion_order (fun _ n => 2 * n) [⟨1, 3, .accIn⟩] ⟨by decide, by decide, by decide, by decide⟩
    [([1, 2, 3], [⟨1, 2, [1, 2]⟩, ⟨1, 1, [3, 0]⟩])] (by
      intro p hp
      rw [List.mem_singleton.1 hp]
      exact ⟨by simp, ⟨4, rfl⟩⟩) 2 [1, 1, 1, 1, 1, 1, 1, 1, 0] (by
    have h1 : ∀ (s : Racers) (x : Place), s.all = [.out, x] → ∀ (j : Nat) (p : Place), j ≠ 1 → s.all[j]? = some p → p = .out := by
      intro s x hs j p hj h
      rw [hs] at h
      match j, hj, h with
      | 0, _, h => exact (Option.some.inj h).symm
      | _ + 2, _, h => simp at h
    have h0 : ∀ (s : Racers) (x : Place), s.all = [x, .out] → ∀ (j : Nat) (p : Place), j ≠ 0 → s.all[j]? = some p → p = .out := by
      intro s x hs j p hj h
      rw [hs] at h
      match j, hj, h with
      | 1, _, h => exact (Option.some.inj h).symm
      | _ + 2, _, h => simp at h
    exact ⟨h1 _ .out rfl, h1 _ .entered rfl, h1 _ .top rfl, h1 _ (.got 2 [1, 2]) rfl, h1 _ (.emptied 2 [1, 2]) rfl, h1 _ .top rfl,
      h1 _ (.got 1 [3, 0]) rfl, h1 _ .leaving rfl, h0 _ .out rfl, trivial⟩)

/-- What it gets. -/
example : ((Racers.start 2 [.ok ⟨1, 2, [1, 2]⟩, .ok ⟨1, 1, [3, 0]⟩]).run (fun _ n => 2 * n) [⟨1, 3, .accIn⟩]
    [1, 1, 1, 1, 1, 1, 1, 1, 0]).returned = [(1, .ok [1, 2, 3, 0])] := rfl

end Props
