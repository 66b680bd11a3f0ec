import Verif.Flow.Drain
import Verif.SharedReader.Lemmas

/-!
# Frames flowing through any network of filters (src/Filter.cpp, src/IOInterface.cpp, src/WorkersPool.cpp)

As `Verif.Flow`, for filters with any number of readers and writers connected in any way (mixers,
splitters, several sources and sinks, cycles), of either role, in any mode of choosing frames.  What a
filter does with its frames, which of its readers a round concerns (`framesSync`, src/Filter.cpp:573-618)
and whether the round goes on to process (510, 536-537, 660-734) is left open: every answer is an
execution.  Several filters may share the reader of a queue (src/Filter.cpp:252-284).  Each call on a
queue or reader is one step, as are the critical sections of the pool; no filter is removed and no
connection changed.

The frame handed out again when a reader has nothing new (src/IOInterface.cpp:88-91, 104-108) is not
committed, released or counted and does not appear.
-/

namespace Lms.Net

open Pool (P)
open FrameQueue (Ring)
open SharedReader (Rd)

/-- The connections (src/Filter.cpp:252-284, 321-364): the queues read and written by each filter, the
filter that writes and those that read a queue; whether a filter is periodic (src/Runnable.hh:121-128). -/
structure Graph where
  ins : Nat → List Nat
  outs : Nat → List Nat
  src : Nat → Nat
  dst : Nat → List Nat
  periodic : Nat → Bool

/-- Where a worker is inside `regularProcessFrame` or `serverProcessFrame` (src/Filter.cpp:501-546):
outside; before `demandOriginFrames`; in it, with the readers still to ask and the new frames got (queue
and slot); in `demandDestinationFrames`, with the writers still to ask and the slots got; in `addFrames`,
with the frames still to commit, the origin frames and the ids to return; in `removeFrames`, with the
queues still to release. -/
inductive Act (α : Type) where
  | out | start
  | look (todo : List Nat) (got : List (Nat × Nat))
  | slots (todo : List Nat) (got ds : List (Nat × Nat))
  | commit (todo : List (Nat × Nat × α)) (got : List (Nat × Nat)) (en : List Int)
  | drop (todo : List Nat) (en : List Int)

/-- The pool; the queues with their readers (see `SharedReader.Rd`); what each worker is doing
(src/WorkersPool.cpp:81-139). -/
structure S (α : Type) where
  pool : P
  rd : Nat → Rd α
  act : Nat → Act α

variable {α : Type}

/-- Before any filter is given to the pool: queue `q` has `size q` buffers
(src/AVFramedQueue.cpp:29-38), its reader is connected and shared by the filters `g.dst q`
(src/IOInterface.cpp:60-68, 178-192); filter `k` has id `k`. -/
def S.init (g : Graph) (size : Nat → Nat) (d : Nat → Nat → α) (time : Nat → Nat) : S α :=
  { pool := P.init (fun k => (k : Int)) time
    rd := fun q => { ring := Ring.create (size q) (d q), conn := true, frame := none
                     filters := (g.dst q).map fun k => (k, false, false), ready := true }
    act := fun _ => .out }

/-- A queue (src/AVFramedQueue.hh). -/
def S.ring (s : S α) (q : Nat) : Ring α := (s.rd q).ring

/-- The writer has changed a queue (src/IOInterface.cpp:319-340). -/
def S.onRing (s : S α) (q : Nat) (r : Ring α) : S α :=
  { s with rd := Pool.set s.rd q { s.rd q with ring := r } }

/-- `add`, `pick`, `done`, `post`: the pool (src/WorkersPool.cpp:81-177).  `begin w qs`: `framesSync` has
chosen the readers `qs` (src/Filter.cpp:573-618).  `look w`: one reader is asked (src/IOInterface.cpp:70-113).
`go w`, `skip w`: the frames got are to be processed, or not (src/Filter.cpp:510-514).  `slot w`: one
writer is asked by force (190).  `work w y`: `runDoProcessFrame` (516), which fills and marks as consumed
the frames `y` of some writers.  `commit w`: one frame is added (210), or `addFrames` is left.  `drop w`:
one frame is released (231). -/
inductive Op (α : Type) where
  | add (k : Nat) | pick (w now : Nat)
  | begin (w : Nat) (qs : List Nat) | look (w : Nat) | go (w : Nat) | skip (w : Nat) | slot (w : Nat)
  | work (w : Nat) (y : Nat → Option α) | commit (w : Nat) | drop (w : Nat)
  | done (w t : Nat) | post (w : Nat)

/-- `ran k xs`: filter `k` has been given the new frames `xs` (queue and frame) to process (src/Filter.cpp:516).
`skipped k xs`: they are to be released unprocessed (512).  `put q y`: a frame is committed (210). -/
inductive Out (α : Type) where
  | quiet | ran (k : Nat) (xs : List (Nat × α)) | skipped (k : Nat) (xs : List (Nat × α)) | put (q : Nat) (y : α)

/-- Run a step of the pool (src/WorkersPool.cpp:81-186, see `Pool.P.step`). -/
def S.onPool (s : S α) (op : Pool.Op) (f : P → Pool.Out → S α) : Outcome (S α × Out α) :=
  (s.pool.step op).bind fun (p, o) => .ok (f p o, .quiet)

/-- A worker goes on (src/WorkersPool.cpp:118). -/
def S.at (s : S α) (w : Nat) (a : Act α) : S α := { s with act := Pool.set s.act w a }

/-- The origin frames (src/Filter.cpp:651-655). -/
def S.frames (s : S α) (got : List (Nat × Nat)) : List (Nat × α) := got.map fun x => (x.1, (s.ring x.1).slots x.2)

/-- The frames the processing has marked as consumed (src/Filter.cpp:206-207). -/
def consumed (y : Nat → Option α) (ds : List (Nat × Nat)) : List (Nat × Nat × α) :=
  ds.filterMap fun x => (y x.1).map fun v => (x.1, x.2, v)

/-- src/Filter.cpp:240-250 `pendingJobs`. -/
def S.pending (g : Graph) (s : S α) (k : Nat) : Bool := (g.ins k).any fun q => decide (0 < (s.ring q).getElements)

/-- One step of a worker running filter `k`, at the place `a`; see `Op` for the lines. -/
def S.inner (g : Graph) (s : S α) (w k : Nat) (a : Act α) (op : Op α) : Outcome (S α × Out α) :=
  match op, a with
  | .begin _ qs, .start => .ok (s.at w (.look ((g.ins k).filter fun q => qs.contains q) []), .quiet)
  | .look _, .look (q :: todo) got =>
    ((s.rd q).getFrame k).bind fun (r, o) =>
      match o, r.frame with
      | some (_, true), some i =>
        .ok (({ s with rd := Pool.set s.rd q r } : S α).at w (.look todo (got ++ [(q, i)])), .quiet)
      | _, _ => .ok (({ s with rd := Pool.set s.rd q r } : S α).at w (.look todo got), .quiet)
  | .go _, .look [] got => .ok (s.at w (.slots (g.outs k) got []), .quiet)
  | .skip _, .look [] got => .ok (s.at w (.drop (got.map Prod.fst) []), .skipped k (s.frames got))
  | .slot _, .slots (q :: todo) got ds =>
    ((s.ring q).writerSlot true).bind fun (r, d) =>
      match d with
      | some i => .ok ((s.onRing q r).at w (.slots todo got (ds ++ [(q, i)])), .quiet)
      | none => .ub
  | .work _ y, .slots [] got ds => .ok (s.at w (.commit (consumed y ds) got []), .ran k (s.frames got))
  | .commit _, .commit ((q, i, v) :: todo) got en =>
    (((s.ring q).write i v).addFrame).bind fun r =>
      .ok ((s.onRing q r).at w (.commit todo got ((g.dst q).map (fun (k : Nat) => (k : Int)) ++ en)), .put q v)
  | .commit _, .commit [] got en => .ok (s.at w (.drop (got.map Prod.fst) en), .quiet)
  | .drop _, .drop (q :: todo) en =>
    ((s.rd q).removeFrame k).bind fun (r, _) =>
      .ok (({ s with rd := Pool.set s.rd q r } : S α).at w (.drop todo en), .quiet)
  | _, _ => .ok (s, .quiet)

/-- The worker that takes a step, if a worker takes it (`add` is called from outside). -/
def Op.by : Op α → Option Nat
  | .add _ => none
  | .pick w _ | .begin w _ | .look w | .go w | .skip w | .slot w | .work w _ | .commit w | .drop w | .done w _ | .post w => some w

/-- One step; a periodic filter appends its own id (src/Filter.cpp:493-495). -/
def S.step (g : Graph) (s : S α) (op : Op α) : Outcome (S α × Out α) :=
  match op with
  | .add k => s.onPool (.add k) fun p _ => { s with pool := p }
  | .pick w now => s.onPool (.pick w now) fun p o =>
      match o with
      | .picked _ => ({ s with pool := p } : S α).at w .start
      | _ => { s with pool := p }
  | .done w t =>
    match s.act w with
    | .drop [] _ => s.onPool (.done w t) fun p _ => { s with pool := p }
    | _ => .ok (s, .quiet)
  | .post w =>
    match s.pool.ph w, s.act w with
    | .post k, .drop [] en =>
      s.onPool (.post w (if g.periodic k then en ++ [(k : Int)] else en) (s.pending g k)) fun p _ =>
        ({ s with pool := p } : S α).at w .out
    | _, _ => .ok (s, .quiet)
  | op =>
    match op.by with
    | none => .ok (s, .quiet)
    | some w =>
      match s.pool.ph w with
      | .run k => s.inner g w k (s.act w) op
      | _ => .ok (s, .quiet)

end Lms.Net
