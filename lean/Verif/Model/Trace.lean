import Verif.Go.Text
import Verif.Model.Hid

/-! Model of trace/trace.go. -/

namespace Ipod.Trace
open Go

/-- trace.go:16 `Dir`, a byte. -/
abbrev Dir := UInt8

/-- trace.go:11-14. -/
abbrev dirIn : Dir := 0
/-- See trace/trace.go:13. -/
abbrev dirOut : Dir := 1

/-- trace.go:18-27 `(Dir).MarshalText`. -/
def dirMarshal (d : Dir) : Except Err Bytes :=
  if d = dirIn then .ok [0x3C]
  else if d = dirOut then .ok [0x3E]
  else .error Err.badTrace

/-- trace.go:29-43 `(*Dir).UnmarshalText`. -/
def dirUnmarshal (text : Bytes) : Except Err Dir :=
  match text with
  | [c] => if c = 0x3C then .ok dirIn else if c = 0x3E then .ok dirOut else .error Err.badTrace
  | _ => .error Err.badTrace

/-- trace.go:45-49 `Msg`; `uint` has 64 bits. -/
structure Msg where
  dir : Dir
  ts : UInt64
  data : Bytes
deriving DecidableEq, Repr

/-- The zero `Msg`. See trace/trace.go:181, cmd/ipod/main.go:422. -/
def Msg.zero : Msg := ⟨0, 0, []⟩

/-- trace.go:51-62 `(Msg).MarshalText`. -/
def msgMarshal (m : Msg) : Except Err Bytes :=
  match dirMarshal m.dir with
  | .error e => .error e
  | .ok dt =>
    if m.data.length = 0 then .error Err.badTrace
    else .ok (dt.take 1 ++ [0x20] ++ fmtSpacedHex true m.data)

/-- trace.go:64-81 `(*Msg).UnmarshalText`: the message afterwards and the error. -/
def msgUnmarshal (m : Msg) (text : Bytes) : Msg × Option Err :=
  if text.length < 4 then (m, some Err.badTrace)
  else
    match dirUnmarshal (text.take 1) with
    | .error e => (m, some e)
    | .ok d =>
      let m := { m with dir := d }
      match sscanfHex (dropByte 0x20 (text.drop 2)) with
      | .error _ => (m, some Err.badTrace)
      | .ok data => ({ m with data := data }, none)

/-- trace.go:83-87 `Reader` on a file: the unread content, how the file ends (`none`: `io.EOF`, else the error of the
failing read), the sticky error and the counter. -/
structure Reader where
  content : Bytes
  ending : Option Err
  err : Option Err
  ts : UInt64

/-- trace.go:89-93 `NewReader`. -/
def newReader (content : Bytes) (ending : Option Err) : Reader := ⟨content, ending, none, 0⟩

/-- trace.go:99-115, the rest of `ReadMsg` after the check of the sticky error. -/
def readMsgLoop (r : Reader) (m : Msg) : Reader × Msg × Option Err :=
  match _h : scanLine r.content with
  | .token text rest =>
    if text.length = 0 then readMsgLoop { r with content := rest } m
    else
      let r := { r with content := rest }
      match msgUnmarshal m text with
      | (m, some e) => (r, m, some e)
      | (m, none) => ({ r with ts := r.ts + 1 }, { m with ts := r.ts }, none)
  | .tooLong => ({ r with err := some .tooLong }, m, some .tooLong)
  | .done => ({ r with err := some (r.ending.getD .eof) }, m, some (r.ending.getD .eof))
termination_by r.content.length
decreasing_by exact scanLine_lt _h

theorem readMsgLoop_lt {r : Reader} {m : Msg} {r' : Reader} {m' : Msg} (h : readMsgLoop r m = (r', m', none)) :
    r'.content.length < r.content.length := by
  fun_induction readMsgLoop r m with
  | case1 r text rest hs h0 ih =>
    have := scanLine_lt hs
    have := ih h
    simp only at this
    omega
  | case2 => simp at h
  | case3 r text rest hs h0 r1 m1 =>
    have := scanLine_lt hs
    simp only [Prod.mk.injEq] at h
    rw [← h.1]
    exact this
  | case4 => simp at h
  | case5 => simp at h

/-- trace.go:95-116 `(*Reader).ReadMsg`: reader, message, error. -/
def readMsg (r : Reader) (m : Msg) : Reader × Msg × Option Err :=
  match r.err with
  | some e => (r, m, some e)
  | none => readMsgLoop r m

/-- trace.go:128-137 `(*Writer).WriteMsg` to a writer accepting everything: what it has been given afterwards, and the
error. `WriteMsg` issues one `Write` per message; its count is ignored. -/
def writeMsg (file : Bytes) (m : Msg) : Bytes × Option Err :=
  match msgMarshal m with
  | .error e => (file, some e)
  | .ok t => (file ++ (t ++ [0x0A]), none)

/-- Result of one `Write` of the wrapped device: how many bytes it took and the error. See trace/trace.go:145. -/
structure WriteRes where
  n : Nat
  err : Option Err
deriving DecidableEq, Repr

/-- trace.go:144-150 `(*tracer).Write`: the trace file and what is returned. `p[:n]` is taken to be inside `p`, as the
contract of `io.Writer` says. The result of `WriteMsg` is dropped. -/
def tracerWrite (file : Bytes) (p : Bytes) (res : WriteRes) : Bytes × WriteRes :=
  match res.err with
  | none => ((writeMsg file ⟨dirOut, 0, p.take res.n⟩).1, res)
  | some _ => (file, res)

/-- trace.go:152-158 `(*tracer).Read`: the trace file and what is returned. -/
def tracerRead (file : Bytes) (res : Hid.ReadRes) : Bytes × Hid.ReadRes :=
  match res.err with
  | none => ((writeMsg file ⟨dirIn, 0, res.data⟩).1, res)
  | some _ => (file, res)

/-- An operation on a traced device (trace.go:144-158), with what the device answers. -/
inductive TOp where
  | read (res : Hid.ReadRes)
  | write (p : Bytes) (res : WriteRes)

/-- What a caller of the tracer gets back (trace.go:149, 157). -/
inductive TRes where
  | read (res : Hid.ReadRes)
  | write (res : WriteRes)
deriving DecidableEq

/-- trace.go:144-158: the operations of a session go through the tracer one after another; the trace file and what the callers
get back. -/
def runTracer : Bytes → List TOp → Bytes × List TRes
  | file, [] => (file, [])
  | file, .read res :: ops =>
    let (file, r) := tracerRead file res
    let (file, rs) := runTracer file ops
    (file, .read r :: rs)
  | file, .write p res :: ops =>
    let (file, r) := tracerWrite file p res
    let (file, rs) := runTracer file ops
    (file, .write r :: rs)

/-- trace.go:179-190 `(*traceDirReader).Read` into a buffer of `n` bytes. -/
def dirReaderRead (dir : Dir) (n : Nat) (r : Reader) : Reader × Hid.ReadRes :=
  match r.err with
  | some e => (r, ⟨[], some e⟩)
  | none =>
    match _h : readMsgLoop r Msg.zero with
    | (r', m, none) =>
      if m.dir ≠ dir then
        dirReaderRead dir n r'
      else (r', ⟨m.data.take n, none⟩)
    | (r', _, some e) => (r', ⟨[], some e⟩)
termination_by r.content.length
decreasing_by exact readMsgLoop_lt _h

/-! ### Queue

A `*Msg` is a number; what it points to is in a table, as the queue reads `msg.Dir` again when it removes a message. A
`container/list` is the list of its elements. Every `queueItem` has one element in `all` and one in the list of its
direction, so one number stands for the item and for both elements; `(*list.List).Remove` does nothing if the element
is not in that list. -/

/-- A `*Msg`. See trace/trace.go:193. -/
abbrev Ptr := Nat

/-- trace.go:192-195 `queueItem`. -/
structure QueueItem where
  id : Nat
  msg : Ptr
deriving DecidableEq, Repr

/-- trace.go:197-200 `Queue`; `next` numbers the items. -/
structure Queue where
  all : List QueueItem
  inn : List QueueItem
  out : List QueueItem
  next : Nat
deriving DecidableEq, Repr

/-- The zero `Queue`. See trace/trace.go:197-200, cmd/ipod/main.go:420. -/
def Queue.empty : Queue := ⟨[], [], [], 0⟩

/-- `(*list.List).Remove`. See trace/trace.go:239-240,254-255. -/
def listRemove (l : List QueueItem) (e : QueueItem) : List QueueItem := l.filter (·.id ≠ e.id)

/-- trace.go:202-210 `dirList`, as reading. -/
def Queue.dirList (q : Queue) (d : Dir) : Out (List QueueItem) :=
  if d = dirIn then .ret q.inn else if d = dirOut then .ret q.out else .panic

/-- trace.go:202-210 `dirList`, as updating the list it points to. -/
def Queue.setDirList (q : Queue) (d : Dir) (l : List QueueItem) : Queue :=
  if d = dirIn then { q with inn := l } else { q with out := l }

/-- trace.go:212-216 `Enqueue`. -/
def Queue.enqueue (q : Queue) (mem : Ptr → Msg) (msg : Ptr) : Out Queue :=
  let qi : QueueItem := ⟨q.next, msg⟩
  let q := { q with all := q.all ++ [qi], next := q.next + 1 }
  q.dirList (mem msg).dir >>= fun l => .ret (q.setDirList (mem msg).dir (l ++ [qi]))

/-- trace.go:218-228 `Head`. -/
def Queue.head (q : Queue) : Option Ptr := q.all.head?.map (·.msg)

/-- trace.go:239-240, 254-255: taking an item out of the two lists. -/
def Queue.remove (q : Queue) (mem : Ptr → Msg) (qi : QueueItem) : Out Queue :=
  let q := { q with all := listRemove q.all qi }
  q.dirList (mem qi.msg).dir >>= fun l => .ret (q.setDirList (mem qi.msg).dir (listRemove l qi))

/-- trace.go:230-243 `Dequeue`. -/
def Queue.dequeue (q : Queue) (mem : Ptr → Msg) : Out (Queue × Option Ptr) :=
  match q.all.head? with
  | none => .ret (q, none)
  | some qi => q.remove mem qi >>= fun q => .ret (q, some qi.msg)

/-- trace.go:245-258 `DequeueDir`. -/
def Queue.dequeueDir (q : Queue) (mem : Ptr → Msg) (d : Dir) : Out (Queue × Option Ptr) :=
  q.dirList d >>= fun l =>
  match l.head? with
  | none => .ret (q, none)
  | some qi => q.remove mem qi >>= fun q => .ret (q, some qi.msg)

/-- trace.go:272-278 `(*queueDirReader).Read` into a buffer of `n` bytes. -/
def queueDirRead (mem : Ptr → Msg) (d : Dir) (n : Nat) (q : Queue) : Out (Queue × Hid.ReadRes) :=
  q.dequeueDir mem d >>= fun (q, msg) =>
  match msg with
  | none => .ret (q, ⟨[], some .eof⟩)
  | some p => .ret (q, ⟨(mem p).data.take n, none⟩)

/-- trace.go:179-190: what `n` calls of the reader of one direction return, with buffers of `size` bytes. -/
def dirReads (dir : Dir) (size : Nat) : Nat → Reader → List Hid.ReadRes
  | 0, _ => []
  | n + 1, r => (dirReaderRead dir size r).2 :: dirReads dir size n (dirReaderRead dir size r).1

/-! ### cmd/ipod/main.go: the trace file -/

/-- cmd/ipod/main.go:47-49 `newTraceFile`: `os.OpenFile` with `O_RDWR|O_CREATE`: the file keeps its old content and
writing starts at offset zero. Content after writing `w` in any number of `Write` calls. -/
def fileAfter (old w : Bytes) : Bytes := w ++ old.drop w.length

end Ipod.Trace
