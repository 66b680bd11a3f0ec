import Verif.FrameQueue.Model

/-!
# Finer models of the frame queue's users

* `Users`: the writer and the reader hold on to the buffers they were given while the other side
  acts (each queue call is atomic).  Used for "the slot being written is never the slot being read".
* `Conc`: two threads whose individual loads and stores of the shared indices interleave.
-/

namespace Lms.FrameQueue

/-! ### Held buffers -/

/-- Queue plus the buffers currently held by its two users.  The writer holds the buffer returned
by `Writer::getFrame` (src/IOInterface.cpp:319-335) until it commits (337-340) or asks again;
the reader holds `Reader::frame` (src/IOInterface.cpp:84-86) until it releases it (131-135), or
the buffer returned by `forceGetFront` (88-91) until its next request. -/
structure Users (α : Type) where
  ring : Ring α
  w : Option Nat
  /-- `some (i, true)`: current frame in slot `i`; `some (i, false)`: old frame in slot `i`. -/
  rd : Option (Nat × Bool)

inductive UOp where
  /-- writer asks for a buffer -/
  | wGet (force : Bool)
  /-- writer commits the buffer it holds -/
  | wCommit
  /-- reader asks for a frame -/
  | rGet
  /-- reader releases the current frame -/
  | rRelease
  deriving DecidableEq, Repr

variable {α : Type}

/-- src/IOInterface.cpp:319-340 (writer side) and 70-138 (reader side, a single filter).
A commit without a held buffer and a release without a current frame are not issued by the
filters and are ignored here. -/
def ustep (s : Users α) : UOp → Outcome (Users α)
  | .wGet force => (s.ring.writerSlot force).bind fun (r, o) => .ok { s with ring := r, w := o }
  | .wCommit =>
    match s.w with
    | some _ => s.ring.addFrame.bind fun r => .ok { s with ring := r, w := none }
    | none => .ok s
  | .rGet =>
    match s.rd with
    | some (_, true) => .ok s
    | _ =>
      match s.ring.getFront with
      | some i => .ok { s with rd := some (i, true) }
      | none => s.ring.forceGetFront.bind fun i => .ok { s with rd := some (i, false) }
  | .rRelease =>
    match s.rd with
    | some (_, true) => s.ring.removeFrame.bind fun (r, _) => .ok { s with ring := r, rd := none }
    | _ => .ok s

/-- Run a list of user operations. -/
def urun : Users α → List UOp → Outcome (Users α)
  | s, [] => .ok s
  | s, op :: ops => (ustep s op).bind fun s' => urun s' ops

/-! ### Interleaved index accesses -/

/-- Program counter of the writer thread while it executes `Writer::getFrame`, fills the buffer
and executes `addFrame` (src/AVFramedQueue.cpp:47-54, 95-103, 65-79). -/
inductive WPc (α : Type) where
  | idle
  /-- about to evaluate `(rear + 1) % max == front` in getRear (line 49); `force` -/
  | getRear (x : α) (force : Bool)
  /-- saw a full queue with force: about to execute `flush` (lines 97-100, 90-93) -/
  | flushing (x : α)
  /-- has the buffer `frames[rear]`, about to start writing -/
  | slot (x : α)
  /-- in the middle of writing the buffer -/
  | torn (x : α)
  /-- buffer written, about to evaluate the test in addFrame (line 73) -/
  | filled (x : α)
  /-- test in addFrame passed, about to store `rear` (line 76) -/
  | store (x : α)
  deriving DecidableEq, Repr

/-- Program counter of the reader thread (src/AVFramedQueue.cpp:56-63, 81-88). -/
inductive RPc (α : Type) where
  | idle
  /-- getFront returned `frames[front]`; about to read the buffer -/
  | holding
  /-- buffer content read; about to evaluate the test in removeFrame (line 83) -/
  | got (v : Option α)
  /-- test passed, about to store `front` (line 86) -/
  | store (v : Option α)
  deriving DecidableEq, Repr

/-- Shared memory, both program counters, and the history: what was committed and what the
reader obtained.  A buffer content `none` means "half written".  Each index load and store is
one atomic step (the C++ fields are plain `size_t`, so this assumes untorn, sequentially
consistent accesses). -/
structure Conc (α : Type) where
  max : Nat
  slots : List (Option α)
  rear : Nat
  front : Nat
  w : WPc α
  r : RPc α
  committed : List α
  delivered : List (Option α)
  deriving DecidableEq, Repr

inductive CAct (α : Type) where
  | wBegin (x : α) (force : Bool)
  | w
  /-- the writer gives up without committing (its processing failed) -/
  | wAbandon
  | r
  deriving DecidableEq, Repr

/-- One atomic step; `none` when the action is not enabled. -/
def cstep (s : Conc α) : CAct α → Option (Conc α)
  | .wBegin x f => match s.w with
    | .idle => some { s with w := .getRear x f }
    | _ => none
  | .wAbandon => match s.w with
    | .torn _ | .filled _ => some { s with w := .idle }
    | _ => none
  | .w => match s.w with
    | .idle => none
    | .getRear x f =>
      -- load of `front`
      if (s.rear + 1) % s.max = s.front then
        some { s with w := if f then .flushing x else .idle }
      else some { s with w := .slot x }
    | .flushing x =>
      some { s with rear := (s.rear + (s.max - 1)) % s.max, w := .getRear x true }
    | .slot x => some { s with slots := s.slots.set s.rear none, w := .torn x }
    | .torn x => some { s with slots := s.slots.set s.rear (some x), w := .filled x }
    | .filled x =>
      if (s.rear + 1) % s.max = s.front then some { s with w := .idle }
      else some { s with w := .store x }
    | .store x =>
      some { s with rear := (s.rear + 1) % s.max, w := .idle, committed := s.committed ++ [x] }
  | .r => match s.r with
    | .idle =>
      -- load of `rear`
      if s.rear = s.front then some s else some { s with r := .holding }
    | .holding => some { s with r := .got (s.slots[s.front]?.join) }
    | .got v =>
      if s.rear = s.front then some { s with r := .idle } else some { s with r := .store v }
    | .store v =>
      some { s with front := (s.front + 1) % s.max, r := .idle, delivered := s.delivered ++ [v] }

/-- Run a schedule. -/
def crun : Conc α → List (CAct α) → Option (Conc α)
  | s, [] => some s
  | s, a :: as => (cstep s a).bind fun s' => crun s' as

/-- src/AVFramedQueue.cpp:29-38: a fresh queue of `max` buffers with arbitrary content. -/
def Conc.init (max : Nat) (d : α) : Conc α :=
  { max := max, slots := List.replicate max (some d), rear := 0, front := 0, w := .idle,
    r := .idle, committed := [], delivered := [] }

/-- Schedules in which the writer never forces. -/
def Unforced : CAct α → Prop
  | .wBegin _ true => False
  | _ => True

end Lms.FrameQueue
