import Verif.Spec.LogView
import Verif.Props.LogServer
import Verif.Props.View

/-! C83: the log of the trace viewer. -/

namespace Props
open Go Spec Ipod Ipod.Hid Ipod.Log Ipod.Trace

theorem dirPrefix_mark {d : Trace.Dir} (h : d = 0 ∨ d = 1) : dirPrefix d = ascii (mark d) := by
  rcases h with rfl | rfl <;> rfl

/-- The viewer with its log does what it does without. -/
theorem dumpLogged_log (grow : Growth) (defs : List ReportDef) (mem : Ptr → Msg) (hm : ∀ p, (mem p).dir = 0 ∨ (mem p).dir = 1)
    (fuel : Nat) (q : Queue) (mode : Bool) :
    match dumpLoop grow defs mem fuel q mode with
    | .panic => dumpLogged grow defs mem fuel q mode = .panic
    | .ret none => dumpLogged grow defs mem fuel q mode = .ret none
    | .ret (some evs) => ∃ ls, dumpLogged grow defs mem fuel q mode = .ret (some ls) ∧ ViewLog mode evs ls := by
  induction fuel generalizing q mode with
  | zero => rfl
  | succ fuel ih =>
    rw [dumpLoop, dumpLogged]
    cases hq : q.head with
    | none => exact ⟨_, rfl, .nil⟩
    | some head =>
      dsimp only
      cases hx : readFrameQueue grow defs mem (mem head).dir q with
      | panic => rfl
      | ret x =>
        obtain ⟨q', r⟩ := x
        simp only [Out.bind_ret]
        rw [dirPrefix_mark (hm head)]
        cases r with
        | error e =>
          dsimp only
          by_cases he : e = .eof
          · rw [if_pos he, if_pos he]
            exact ⟨_, rfl, .nil⟩
          · rw [if_neg he, if_neg he]
            have ih := ih q' mode
            cases h1 : dumpLoop grow defs mem fuel q' mode with
            | panic => rw [h1] at ih; dsimp only at ih; rw [ih]; rfl
            | ret y =>
              rw [h1] at ih
              cases y with
              | none => dsimp only at ih; rw [ih]; rfl
              | some evs =>
                obtain ⟨ls, h2, h3⟩ := ih
                rw [h2]
                exact ⟨_, rfl, .error .frameInErr h3⟩
        | ok frame =>
          dsimp only
          have hs := readLogged_same (ascii (mark (mem head).dir)) mode frame
          cases ha : readLogged (ascii (mark (mem head).dir)) mode frame with
          | panic => rw [ha] at hs; rw [← hs]; rfl
          | ret a =>
            obtain ⟨m', cmds, la⟩ := a
            rw [ha] at hs
            simp only [Out.bind_ret] at hs
            rw [← hs]
            simp only [Out.bind_ret]
            have ih := ih q' m'
            cases h1 : dumpLoop grow defs mem fuel q' m' with
            | panic => rw [h1] at ih; dsimp only at ih; rw [ih]; rfl
            | ret y =>
              rw [h1] at ih
              cases y with
              | none => dsimp only at ih; rw [ih]; rfl
              | some evs =>
                obtain ⟨ls, h2, h3⟩ := ih
                rw [h2]
                obtain ⟨d, spare⟩ := frame
                obtain ⟨items, ev, i1, i2, i3⟩ := readLogged_events ha
                exact ⟨_, rfl, .frame (l := _ :: la) i1 i2 (.cons .frameIn i3) h3⟩

/-- C83. On every trace it can read, the viewer either panics or ends, and its log is that of the frames it shows: for each frame
its length (or the error), each packet (or the error), each change of the transaction mode, each command, marked with the
direction; at last EOF. -/
theorem C83_view {r : Reader} {ms : List Msg} (h : loadTrace r = .ok ms) (grow : Growth) (defs : List ReportDef)
    (fuel : Nat) (hf : ms.length < fuel) :
    viewLogged grow defs fuel r = .ok .panic ∧ dumpTrace grow defs fuel r = .ok .panic ∨
    ∃ evs ls, viewLogged grow defs fuel r = .ok (.ret (some ls)) ∧ dumpTrace grow defs fuel r = .ok (.ret (some evs)) ∧
      Viewing defs ms (evs.map fun e => (e.dir, e.frame)) ∧ ViewLog false evs ls := by
  have hm : ∀ p : Ptr, ((ms[p]?).getD Msg.zero).dir = 0 ∨ ((ms[p]?).getD Msg.zero).dir = 1 := by
    intro p
    cases hp : ms[p]? with
    | none => exact .inl rfl
    | some m => exact loadTrace_dirs h _ (List.mem_of_getElem? hp)
  have hd := C58_view_partial h grow defs fuel hf
  rw [dumpTrace, h] at hd
  rw [viewLogged, dumpTrace, h]
  simp only [Except.ok.injEq] at hd ⊢
  obtain ⟨mem, hmem⟩ : ∃ mem : Ptr → Msg, mem = fun p => (ms[p]?).getD Msg.zero := ⟨_, rfl⟩
  rw [← hmem] at hd ⊢
  have hm : ∀ p, (mem p).dir = 0 ∨ (mem p).dir = 1 := by rw [hmem]; exact hm
  cases hq : enqueueAll mem (List.range ms.length) Queue.empty with
  | panic =>
    rw [hq] at hd
    rcases hd with hd | ⟨_, hd, _⟩
    · exact .inl ⟨rfl, rfl⟩
    · cases hd
  | ret q =>
    rw [hq] at hd
    simp only [Out.bind_ret] at hd ⊢
    have hl := dumpLogged_log grow defs mem hm fuel q false
    rcases hd with hd | ⟨evs, hd, h1, _⟩
    · rw [hd] at hl ⊢
      exact .inl ⟨hl, rfl⟩
    · rw [hd] at hl ⊢
      obtain ⟨ls, h2, h3⟩ := hl
      exact .inr ⟨evs, ls, h2, rfl, h1, h3⟩

/-- The messages of the lines about packets, commands and the mode are not those about frames. -/
theorem shownIn_noFrame {d d' : Trace.Dir} (hd : d = 0 ∨ d = 1) (hd' : d' = 0 ∨ d' = 1) {m m' : Bool} {items : List (Option Bytes)}
    {cmds : List Command} {evs : List Event} (h : InEvents m items m' cmds evs) {ls : List Line} (hs : ShownAll (mark d) evs ls) :
    ls.filterMap (lenShown (mark d' ++ "FRAME")) = [] := by
  have e0 : ascii (mark d' ++ "FRAME") = ascii (mark d') ++ ascii "FRAME" := by rcases hd' with rfl | rfl <;> decide +kernel
  have e1 : ascii (mark d) ++ ascii "PACKET" ≠ ascii (mark d') ++ ascii "FRAME" := by
    rcases hd with rfl | rfl <;> rcases hd' with rfl | rfl <;> decide +kernel
  have e2 : ascii (mark d) ++ ascii "CMD" ≠ ascii (mark d') ++ ascii "FRAME" := by
    rcases hd with rfl | rfl <;> rcases hd' with rfl | rfl <;> decide +kernel
  have e3 : ascii "Enabling transaction support" ≠ ascii (mark d') ++ ascii "FRAME" := by rcases hd' with rfl | rfl <;> decide +kernel
  have e4 : ascii "Disabling transaction support" ≠ ascii (mark d') ++ ascii "FRAME" := by rcases hd' with rfl | rfl <;> decide +kernel
  have key : ∀ ev ∈ evs, (∃ r, ev = .packetIn r) ∨ (∃ c e, ev = .cmdIn c e) ∨ ∃ b, ev = .transactions b := by
    clear hs
    induction h with
    | nil => simp
    | bad _ _ ih =>
      intro ev hev
      rcases List.mem_cons.1 hev with rfl | hev
      · exact .inl ⟨_, rfl⟩
      · exact ih ev hev
    | packet _ _ ih =>
      intro ev hev
      simp only [List.mem_cons, List.mem_append] at hev
      rcases hev with rfl | hev | rfl | hev
      · exact .inl ⟨_, rfl⟩
      · rw [modeEvents] at hev
        split at hev
        · cases hev
        · exact .inr (.inr ⟨_, List.mem_singleton.1 hev⟩)
      · exact .inr (.inl ⟨_, _, rfl⟩)
      · exact ih ev hev
  clear h
  induction hs with
  | nil => rfl
  | @cons ev l evs ls hs _ ih =>
    have ih := ih fun ev hev => key ev (by simp [hev])
    have hev := key ev (by simp)
    have : lenShown (mark d' ++ "FRAME") l = none := by
      rw [lenShown, e0]
      cases hs with
      | packetIn => exact if_neg e1
      | packetInErr => exact if_neg e1
      | cmdIn => exact if_neg e2
      | cmdInErr => exact if_neg e2
      | on => exact if_neg e3
      | off => exact if_neg e4
      | _ => simp at hev
    rw [List.filterMap_cons, this, ih]

theorem shownFrame_len {d d' : Trace.Dir} (hd : d = 0 ∨ d = 1) (hd' : d' = 0 ∨ d' = 1) {r : Except Err Bytes} {l : Line}
    (hs : ShownAs (mark d) (.frameIn r) l) : lenShown (mark d' ++ "FRAME") l = if d = d' then some (frameLen r) else none := by
  have e0 : ascii (mark d' ++ "FRAME") = ascii (mark d') ++ ascii "FRAME" := by rcases hd' with rfl | rfl <;> decide +kernel
  rw [lenShown, e0]
  by_cases hdd : d = d'
  · subst hdd
    rw [if_pos rfl]
    cases hs <;> rw [if_pos rfl] <;> rfl
  · have e1 : ascii (mark d) ++ ascii "FRAME" ≠ ascii (mark d') ++ ascii "FRAME" := by
      rcases hd with rfl | rfl <;> rcases hd' with rfl | rfl <;> first | exact absurd rfl hdd | decide +kernel
    rw [if_neg hdd]
    cases hs <;> exact if_neg e1

/-- C83. The lines about the frames of a direction show the lengths of the frames shown of that direction, in order. -/
theorem C83_lengths {m : Bool} {evs : List Shown} {ls : List Line} (h : ViewLog m evs ls) (hd : ∀ e ∈ evs, e.dir = 0 ∨ e.dir = 1)
    {d : Trace.Dir} (hd' : d = 0 ∨ d = 1) :
    ls.filterMap (lenShown (mark d ++ "FRAME")) = (shownOf d (evs.map fun e => (e.dir, e.frame))).map frameLen := by
  have e0 : ascii "EOF" ≠ ascii (mark d ++ "FRAME") := by rcases hd' with rfl | rfl <;> decide +kernel
  induction h with
  | nil =>
    rw [List.filterMap_cons, lenShown, if_neg e0]
    rfl
  | @error m d0 e l evs ls h1 _ ih =>
    have ih := ih fun e he => hd e (by simp [he])
    rw [List.filterMap_cons, shownFrame_len (hd ⟨d0, .error e, []⟩ (by simp)) hd' h1, ih]
    by_cases hdd : d0 = d <;> simp [shownOf, hdd]
  | @frame m m' d0 f spare items cmds ev l evs ls h1 h2 h3 _ ih =>
    have ih := ih fun e he => hd e (by simp [he])
    cases h3 with
    | @cons _ l0 _ l hs hs' =>
      rw [List.filterMap_append, List.filterMap_cons, shownFrame_len (hd ⟨d0, .ok f, cmds⟩ (by simp)) hd' hs,
        shownIn_noFrame (hd ⟨d0, .ok f, cmds⟩ (by simp)) hd' h2 hs', ih]
      by_cases hdd : d0 = d <;> simp [shownOf, hdd]

/-- A trace with a request and its answer: the viewer can read it, -/
example : loadTrace (newReader (writeMsgs [] [⟨0, 0, [0x01, 0x00, 0x55, 0x04, 0x00, 0x38, 0x00, 0x01, 0xC3]⟩,
      ⟨1, 0, [0x07, 0x00, 0x55, 6, 0, 2, 0, 1, 0, 56, 191, 0, 0]⟩]) none) =
    .ok [⟨0, 0, [0x01, 0x00, 0x55, 0x04, 0x00, 0x38, 0x00, 0x01, 0xC3]⟩,
      ⟨1, 1, [0x07, 0x00, 0x55, 6, 0, 2, 0, 1, 0, 56, 191, 0, 0]⟩] := by
  rw [C58_loads _ (by simp [Traceable])]
  rfl

/-- and shows both. -/
example : (match viewLogged (fun _ n => n) defaultReportDefs 3 (newReader (writeMsgs []
      [⟨0, 0, [0x01, 0x00, 0x55, 0x04, 0x00, 0x38, 0x00, 0x01, 0xC3]⟩, ⟨1, 0, [0x07, 0x00, 0x55, 6, 0, 2, 0, 1, 0, 56, 191, 0, 0]⟩]) none) with
    | .ok (.ret (some ls)) => ls
    | _ => []) =
    [⟨4, ascii "<< FRAME", [("len", .num 7)]⟩,
     ⟨4, ascii "<< PACKET", [("len", .num 4)]⟩,
     ⟨3, ascii "Enabling transaction support", []⟩,
     ⟨4, ascii "<< CMD", [("id", .text (ascii "0x00,0x38")), ("trx", .text (ascii "0x0001")), ("type", .text (ascii "*general.StartIDPS"))]⟩,
     ⟨4, ascii ">> FRAME", [("len", .num 11)]⟩,
     ⟨4, ascii ">> PACKET", [("len", .num 6)]⟩,
     ⟨4, ascii ">> CMD", [("id", .text (ascii "0x00,0x02")), ("trx", .text (ascii "0x0001")), ("type", .text (ascii "*general.ACK"))]⟩,
     ⟨3, ascii "EOF", []⟩] := by
  decide +kernel

end Props
