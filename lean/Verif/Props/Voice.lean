import Verif.Props.VoiceRun
import Verif.Model.LogDevice

/-! All that can be watched of `ipod serve` (C116). -/

namespace Props
open Go Spec Ipod Ipod.Hid Ipod.Trace Ipod.Log

/-- C116. Everything `ipod serve` does at the device and says in its log, in order, up to where it waits, ends or crashes: after each
read, for a frame the packets found in it, then what the handlers say, then for each answer its command and packet, the reports
handed to the device up to the one it refuses, and then that the frame was sent, or what the device said. -/
theorem C116_serves {σ : Type} (D : Device σ) (clock : Clock) (dlog : Command → Ctx σ → List Line) (lib : BinTexts) (grow : Growth)
    (legacy : Bool) (fails : Nat → Option Fault) (reads : List ReadT) (s : Srv σ) (items : List Item) (next : Next σ)
    (h : Voice.run D clock dlog lib grow (Cli.table legacy) fails reads (Voice.start s) = (items, next)) :
    ∃ hs, Serves D clock dlog lib legacy fails [] s 0 reads hs (fateOf next) ∧ Watched hs items := by
  have := run_serves D clock dlog lib grow legacy fails reads (Voice.start s)
  rw [h] at this
  exact this

/-- C116. What it does at the device is what it does without the log, also if it crashes. -/
theorem C116_ops {σ : Type} (D : Device σ) (clock : Clock) (dlog : Command → Ctx σ → List Line) (lib : BinTexts) (grow : Growth)
    (legacy : Bool) (fails : Nat → Option Fault) (reads : List ReadT) (s : Srv σ) (items : List Item) (next : Next σ)
    (h : Voice.run D clock dlog lib grow (Cli.table legacy) fails reads (Voice.start s) = (items, next)) :
    deviceOps items = session D clock grow (Cli.table legacy) (fun i => (fails i).map (·.err)) (reads.map (·.res)) (Live.start s) [] := by
  have := run_ops D clock dlog lib grow legacy fails reads (Voice.start s) []
  rw [h] at this
  exact this

/-- The lines of the emulated iPod are messages only, and no warnings. -/
theorem deviceLines_plain (dump : Option Bytes → Bytes) (pkcs : Bytes → Except Bytes (Option Bytes)) : Plain (deviceLines dump pkcs) := by
  have hc : ∀ b, ∀ l ∈ certLines pkcs b, l.fields = [] ∧ l.level ≠ 3 := by
    intro b l hl
    rw [certLines] at hl
    split at hl
    · rw [List.mem_singleton.1 hl]; exact ⟨rfl, by show errorLevel ≠ 3; decide⟩
    · rw [List.mem_singleton.1 hl]; exact ⟨rfl, by show infoLevel ≠ 3; decide⟩
    · cases hl
  intro cmd c l hl
  rw [deviceLines] at hl
  split at hl
  · rw [List.mem_singleton.1 hl]; exact ⟨rfl, by show infoLevel ≠ 3; decide⟩
  · split at hl
    · split at hl
      · cases hl
      · exact hc _ l hl
    · cases hl
  · cases hl

/-- C116. The log can be believed about what was sent: at any time there are as many lines about a frame not sent as reports the
device did not take. -/
theorem C116_refused {σ : Type} (D : Device σ) (clock : Clock) (dlog : Command → Ctx σ → List Line) (hd : Plain dlog) (lib : BinTexts)
    (grow : Growth) (legacy : Bool) (fails : Nat → Option Fault) (reads : List ReadT) (s : Srv σ) (items : List Item) (next : Next σ)
    (h : Voice.run D clock dlog lib grow (Cli.table legacy) fails reads (Voice.start s) = (items, next)) :
    (logLines items).countP refusedFrame = (deviceOps items).countP refusedWrite := by
  obtain ⟨hs, h1, h2⟩ := C116_serves D clock dlog lib grow legacy fails reads s items next h
  obtain ⟨c1, c2, _⟩ := watched_counts h2 fun l t hl => by
    obtain ⟨_, cmd, c, hm⟩ := serves_device h1 hl
    exact hd cmd c l hm
  rw [c1, c2, (serves_counts h1).1]

theorem happenings_end (x : Happening) (a b pre z : List Happening) : ∃ pre', x :: (a ++ (b ++ (pre ++ z))) = pre' ++ z :=
  ⟨x :: (a ++ (b ++ pre)), by simp⟩

theorem serves_ended {σ : Type} {D : Device σ} {clock : Clock} {dlog : Command → Ctx σ → List Line} {lib : BinTexts} {legacy : Bool}
    {fails : Nat → Option Fault} {part : Bytes} {s : Srv σ} {i : Nat} {rs : List ReadT} {hs : List Happening} {fate : Fate}
    (h : Serves D clock dlog lib legacy fails part s i rs hs fate) (hf : fate = .ended) : ∃ pre, hs = pre ++ [.said (.finished, none)] := by
  induction h with
  | rest => cases hf
  | eof => exact ⟨[_], rfl⟩
  | refused _ _ ih => obtain ⟨pre, rfl⟩ := ih hf; exact ⟨_ :: _ :: pre, rfl⟩
  | part _ _ _ _ _ ih => obtain ⟨pre, rfl⟩ := ih hf; exact ⟨_ :: pre, rfl⟩
  | frame _ _ _ _ _ _ _ ih =>
    obtain ⟨pre, rfl⟩ := ih hf
    exact happenings_end _ _ _ _ _
  | crash => cases hf

theorem breaks_last {lib : BinTexts} {spare : Bytes} {m : Bool} {d : Bytes} {evs : List Said} (h : Breaks lib spare m d evs) :
    evs = [] ∨ ∃ pre s, evs = pre ++ [s] ∧ ((∃ r, s.1 = .packetIn r) ∨ ∃ c e, s.1 = .cmdIn c e) := by
  induction h with
  | overrun => exact .inl rfl
  | malformed => exact .inr ⟨[], _, rfl, .inl ⟨_, rfl⟩⟩
  | short _ _ _ ih =>
    rcases ih with rfl | ⟨pre, s, rfl, h⟩
    · exact .inr ⟨[], _, rfl, .inl ⟨_, rfl⟩⟩
    · exact .inr ⟨_ :: pre, s, rfl, h⟩
  | damaged _ _ _ _ _ ih =>
    rcases ih with rfl | ⟨pre, s, rfl, h⟩
    · exact .inr ⟨[], _, rfl, .inl ⟨_, rfl⟩⟩
    · exact .inr ⟨_ :: pre, s, rfl, h⟩
  | @packet m m1 j w rest p cmd evs _ _ _ _ ih =>
    rcases ih with rfl | ⟨pre, s, rfl, h⟩
    · refine .inr ⟨silent (.packetIn (.ok p) :: modeEvents m m1), (.cmdIn cmd none, none), ?_, .inr ⟨_, _, rfl⟩⟩
      simp [silent]
    · exact .inr ⟨_ ++ pre, s, (List.append_assoc ..).symm, h⟩
  | @refused m m1 j w rest p cmd e x evs _ _ _ _ _ ih =>
    rcases ih with rfl | ⟨pre, s, rfl, h⟩
    · exact .inr ⟨_, _, rfl, .inr ⟨_, _, rfl⟩⟩
    · obtain ⟨pre', hp⟩ : ∃ pre', silent (.packetIn (.ok p) :: modeEvents m m1) ++ (.cmdIn cmd (some e), some x) :: (pre ++ [s]) =
          pre' ++ [s] := ⟨silent (.packetIn (.ok p) :: modeEvents m m1) ++ (.cmdIn cmd (some e), some x) :: pre, by simp⟩
      exact .inr ⟨pre', s, hp, h⟩

theorem serves_crashed {σ : Type} {D : Device σ} {clock : Clock} {dlog : Command → Ctx σ → List Line} {lib : BinTexts} {legacy : Bool}
    {fails : Nat → Option Fault} {part : Bytes} {s : Srv σ} {i : Nat} {rs : List ReadT} {hs : List Happening} {fate : Fate}
    (h : Serves D clock dlog lib legacy fails part s i rs hs fate) (hf : fate = .crashed) :
    ∃ pre r f evs last, hs = pre ++ .deed (.got r) :: (evs ++ [last]).map .said ∧ (evs ++ [last]).head? = some (.frameIn (.ok f), none) ∧
      (last.1 = .frameIn (.ok f) ∨ (∃ r, last.1 = .packetIn r) ∨ ∃ c e, last.1 = .cmdIn c e) := by
  induction h with
  | rest => cases hf
  | eof => cases hf
  | refused _ _ ih => obtain ⟨pre, r, f, evs, last, rfl, h⟩ := ih hf; exact ⟨_ :: _ :: pre, r, f, evs, last, rfl, h⟩
  | part _ _ _ _ _ ih => obtain ⟨pre, r, f, evs, last, rfl, h⟩ := ih hf; exact ⟨_ :: pre, r, f, evs, last, rfl, h⟩
  | frame _ _ _ _ _ _ _ ih =>
    obtain ⟨pre, r, f, evs, last, rfl, h⟩ := ih hf
    obtain ⟨pre', hp⟩ := happenings_end _ _ _ pre _
    exact ⟨pre', r, f, evs, last, hp, h⟩
  | @crash part s i r rs link d f spare evs _ _ hb =>
    rcases breaks_last hb with rfl | ⟨pre, l, rfl, h⟩
    · exact ⟨[], r.res, f, [], (.frameIn (.ok f), none), rfl, rfl, .inl rfl⟩
    · exact ⟨[], r.res, f, (.frameIn (.ok f), none) :: pre, l, rfl, rfl, .inr h⟩

theorem watched_split {a b : List Happening} {items : List Item} (h : Watched (a ++ b) items) :
    ∃ l l', items = l ++ l' ∧ Watched a l ∧ Watched b l' := by
  induction a generalizing items with
  | nil => exact ⟨[], items, rfl, .nil, h⟩
  | cons x a ih =>
    cases h with
    | deed h => obtain ⟨l, l', rfl, h1, h2⟩ := ih h; exact ⟨_ :: l, l', rfl, .deed h1, h2⟩
    | said hx h => obtain ⟨l, l', rfl, h1, h2⟩ := ih h; exact ⟨_ :: l, l', rfl, .said hx h1, h2⟩

theorem watched_all_said {evs : List Said} {items : List Item} (h : Watched (evs.map .said) items) :
    ∃ ls, items = ls.map .say ∧ SaidAll "<< " evs ls := by
  induction evs generalizing items with
  | nil => cases h; exact ⟨[], rfl, .nil⟩
  | cons e evs ih =>
    cases h with
    | said hx h => obtain ⟨ls, rfl, h1⟩ := ih h; exact ⟨_ :: ls, rfl, .cons hx h1⟩

/-- C116. The last word: the log has a line that says the end was reached if and only if it was, and then it is the last line. -/
theorem C116_end {σ : Type} (D : Device σ) (clock : Clock) (dlog : Command → Ctx σ → List Line) (hd : Plain dlog) (lib : BinTexts)
    (grow : Growth) (legacy : Bool) (fails : Nat → Option Fault) (reads : List ReadT) (s : Srv σ) (items : List Item) (next : Next σ)
    (h : Voice.run D clock dlog lib grow (Cli.table legacy) fails reads (Voice.start s) = (items, next)) :
    ((∃ l ∈ logLines items, l.message = ascii "EOF" ∧ l.level = 3) ↔ next = .ends) ∧
    (next = .ends → ∃ pre, items = pre ++ [.say ⟨3, ascii "EOF", []⟩]) := by
  obtain ⟨hs, h1, h2⟩ := C116_serves D clock dlog lib grow legacy fails reads s items next h
  obtain ⟨_, _, c3⟩ := watched_counts h2 fun l t hl => by
    obtain ⟨_, cmd, c, hm⟩ := serves_device h1 hl
    exact hd cmd c l hm
  rw [(serves_counts h1).2] at c3
  have hn : fateOf next = .ended ↔ next = .ends := by cases next <;> simp [fateOf]
  refine ⟨?_, fun he => ?_⟩
  · rw [← hn]
    have hp : (∃ l ∈ logLines items, l.message = ascii "EOF" ∧ l.level = 3) ↔ 0 < (logLines items).countP endLine := by
      rw [List.countP_pos_iff]
      simp [endLine]
    rw [hp, c3]
    by_cases hf : fateOf next = .ended
    · rw [if_pos hf]; simp [hf]
    · rw [if_neg hf]; simp [hf]
  · obtain ⟨pre, rfl⟩ := serves_ended h1 (hn.2 he)
    obtain ⟨l, l', rfl, _, h3⟩ := watched_split h2
    cases h3 with
    | said hx h3 => cases h3; cases hx; exact ⟨l, rfl⟩

example (items : List Item) (next : Next DevGeneral)
    (h : Voice.run devGeneral (fun _ => ⟨2024, 1, 2, 3, 4⟩) (fun _ _ => []) ⟨fun _ => [], fun _ => []⟩ (fun _ n => n) (Cli.table false)
      (fun _ => none) [⟨[0x01, 0x00, 0x55, 0x02, 0x00, 0x11, 0xED], none⟩, ⟨[], some ⟨.eof, ascii "EOF"⟩⟩]
      (Voice.start (Srv.init DevGeneral.zero)) = (items, next)) :
    (∃ l ∈ logLines items, l.message = ascii "EOF" ∧ l.level = 3) ↔ next = .ends :=
  (C116_end _ _ _ (by intro _ _ _ h; cases h) _ _ _ _ _ _ _ _ h).1

/-- C116. A crash: after the read that caused it only lines follow, of what was understood of the frame, the last of them about the
frame, a packet or a command that came in; nothing was written, and nothing said of answers. -/
theorem C116_crash {σ : Type} (D : Device σ) (clock : Clock) (dlog : Command → Ctx σ → List Line) (lib : BinTexts)
    (grow : Growth) (legacy : Bool) (fails : Nat → Option Fault) (reads : List ReadT) (s : Srv σ) (items : List Item)
    (h : Voice.run D clock dlog lib grow (Cli.table legacy) fails reads (Voice.start s) = (items, .crash)) :
    ∃ pre r ls last f, items = pre ++ .op (.read r) :: (ls ++ [last]).map .say ∧
      (ls ++ [last]).head? = some ⟨4, ascii "<< FRAME", [("len", .num f)]⟩ ∧
      last.message ∈ [ascii "<< FRAME", ascii "<< PACKET", ascii "<< CMD"] := by
  have e1 : ascii "<< " ++ ascii "FRAME" = ascii "<< FRAME" := by decide +kernel
  have e2 : ascii "<< " ++ ascii "PACKET" = ascii "<< PACKET" := by decide +kernel
  have e3 : ascii "<< " ++ ascii "CMD" = ascii "<< CMD" := by decide +kernel
  obtain ⟨hs, h1, h2⟩ := C116_serves D clock dlog lib grow legacy fails reads s items .crash h
  obtain ⟨pre, r, f, evs, last, rfl, hh, hlast⟩ := serves_crashed h1 rfl
  obtain ⟨l, l', rfl, _, h3⟩ := watched_split h2
  cases h3 with
  | deed h3 =>
    obtain ⟨ls, rfl, h4⟩ := watched_all_said h3
    have hsplit : ∀ {a : List Said} {x : Said} {ls : List Line}, SaidAll "<< " (a ++ [x]) ls →
        ∃ ls' y, ls = ls' ++ [withText x.2 y] ∧ ShownAs "<< " x.1 y := by
      intro a x ls hsa
      induction a generalizing ls with
      | nil => cases hsa with | cons hx h => cases h; exact ⟨[], _, rfl, hx⟩
      | cons b a ih => cases hsa with | cons hx h => obtain ⟨ls', y, rfl, h'⟩ := ih h; exact ⟨_ :: ls', y, rfl, h'⟩
    obtain ⟨ls', y, rfl, hy⟩ := hsplit h4
    refine ⟨l, r, ls', withText last.2 y, f.length, rfl, ?_, ?_⟩
    · cases hev : evs ++ [last] with
      | nil => rw [hev] at hh; cases hh
      | cons a as =>
        rw [hev] at hh h4
        cases hh
        cases hls : ls' ++ [withText last.2 y] with
        | nil => simp at hls
        | cons b bs =>
          rw [hls] at h4
          cases h4 with
          | cons hx _ => cases hx; rw [e1]; rfl
    · rw [(withText_message _ _).1]
      obtain ⟨ev, t⟩ := last
      simp only at hlast hy
      rcases hlast with rfl | ⟨r, rfl⟩ | ⟨c, e, rfl⟩
      · cases hy; simp [e1]
      · cases hy <;> simp [e2]
      · cases hy <;> simp [e3]

/-- C116. It is done and said as it goes: what the accessory sends later does not change what was done and said before. -/
theorem C116_so_far {σ : Type} (D : Device σ) (clock : Clock) (dlog : Command → Ctx σ → List Line) (lib : BinTexts) (grow : Growth)
    (defs : List ReportDef) (fails : Nat → Option Fault) (reads more : List ReadT) (v : Voice σ) :
    (Voice.run D clock dlog lib grow defs fails reads v).1 <+: (Voice.run D clock dlog lib grow defs fails (reads ++ more) v).1 := by
  induction reads generalizing v with
  | nil => exact List.nil_prefix
  | cons r reads ih =>
    rw [List.cons_append, Voice.run, Voice.run]
    cases hx : (v.onRead D clock dlog lib grow defs fails r).2 with
    | crash => simp only [hx]; exact List.prefix_rfl
    | ends => simp only [hx]; exact List.prefix_rfl
    | goes v' =>
      simp only [hx]
      obtain ⟨l, hl⟩ := ih v'
      exact ⟨l, by rw [← hl]; simp⟩

/-- A run for the examples: an accessory asks to start, the iPod's answer is not taken by the device; then it sends a request without
its body. -/
def voiceExample (n : Nat) : List Item × Next DevGeneral :=
  Voice.run devGeneral (fun _ => ⟨2020, 1, 1, 0, 0⟩) (deviceLines (fun _ => []) (fun _ => .ok none)) ⟨fun _ => [], fun _ => []⟩
    (fun _ n => n) (Cli.table false) (fun i => if i = 0 then some ⟨.shortWrite, ascii "short write"⟩ else none)
    ([⟨[1, 0, 0x55, 0x04, 0x00, 0x38, 0x00, 0x01, 0xC3], none⟩, ⟨[1, 0, 0x55, 0x04, 0x00, 0x64, 0x00, 0x02, 0x96], none⟩,
      ⟨[], some ⟨.eof, ascii "EOF"⟩⟩].take n) (Voice.start (Srv.init DevGeneral.zero))

/-- The run crashes: the frame, the packet, and no more. -/
example : logLines (voiceExample 3).1 =
    [⟨4, ascii "<< FRAME", [("len", .num 7)]⟩,
     ⟨4, ascii "<< PACKET", [("len", .num 4)]⟩,
     ⟨3, ascii "Enabling transaction support", []⟩,
     ⟨4, ascii "<< CMD", [("id", .text (ascii "0x00,0x38")), ("trx", .text (ascii "0x0001")), ("type", .text (ascii "*general.StartIDPS"))]⟩,
     ⟨4, ascii ">> CMD", [("id", .text (ascii "0x00,0x02")), ("trx", .text (ascii "0x0001")), ("type", .text (ascii "*general.ACK"))]⟩,
     ⟨4, ascii ">> PACKET", [("len", .num 6)]⟩,
     ⟨2, ascii ">> FRAME", [("len", .num 9), ("error", .text (ascii "short write"))]⟩,
     ⟨4, ascii "<< FRAME", [("len", .num 7)]⟩,
     ⟨4, ascii "<< PACKET", [("len", .num 4)]⟩] := by decide +kernel

/-- It did crash, after one write, which was refused (the hypothesis of `C116_crash` can be met). -/
example : (fateOf (voiceExample 3).2 = .crashed ∧ fateOf (voiceExample 1).2 = .waits) ∧
    ((deviceOps (voiceExample 3).1).countP refusedWrite = 1 ∧ (deviceOps (voiceExample 3).1).length = 3) ∧
    (logLines (voiceExample 3).1).countP refusedFrame = 1 := by decide +kernel

/-- A run that ends (`C116_end`). -/
example : fateOf (Voice.run devGeneral (fun _ => ⟨2020, 1, 1, 0, 0⟩) (fun _ _ => []) ⟨fun _ => [], fun _ => []⟩ (fun _ n => n)
    (Cli.table true) (fun _ => none) [⟨[1, 0, 0x55, 0x02, 0x00, 0x07, 0xF7], none⟩, ⟨[], some ⟨.eof, ascii "EOF"⟩⟩]
    (Voice.start (Srv.init DevGeneral.zero))).2 = .ended := by decide +kernel

end Props
