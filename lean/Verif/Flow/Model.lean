import Verif.Pool.Props
import Verif.FrameQueue.Props

/-!
# Frames flowing along a path (src/Filter.cpp, src/IOInterface.cpp, src/WorkersPool.cpp)

The pool of `Verif.Pool` and the queues of `Verif.FrameQueue` put together: filters 0, 1, …, `last` in
a row, a queue between any two neighbours, and any number of worker threads that take filters from the
pool and run `processFrame`.  Filter 0 is a periodic head filter (src/Filter.cpp:787-790,
src/Filter.hh:334), filter `last` a tail filter, those between have one reader and one writer
(src/Filter.cpp:750-764).  All are regular filters that take frames as they come (`frameTime` not
positive, `sync` off: src/Filter.cpp:560-571, 593-595), connected from the start and never removed.

Workers interleave at the calls a run of `processFrame` makes on the queues (ask for the origin frame,
ask for the destination frame, process and commit, release) and at the critical sections of the pool.
Each such call is one step: the race inside the forced way of getting a destination frame, which C03
records, is outside this model.  `processEvent` (508) does not touch frames and is left out.  The
reader of a queue with one filter hands the front frame out once and keeps it until it is removed
(src/IOInterface.cpp:70-113, 126-141; C08), which is here the slot number held by the worker.
-/

namespace Lms.Flow

open Pool (P set)
open FrameQueue (Ring)

/-- The filters of a path: the number of the tail filter, and what `doProcessFrame` of filter `k` does
with its state and a frame: the new state and the frame it marked as consumed, if any
(src/Filter.cpp:755-764, 207).  What the tail filter leaves in the second place is not used. -/
structure Chain (σ α : Type) where
  last : Nat
  work : Nat → σ → α → σ × Option α

/-- Where a worker is inside `regularProcessFrame` (src/Filter.cpp:501-524): outside, before 510,
holding the origin frame (none for a head filter), holding origin and destination frames (none for a
tail filter) before 516, after `addFrames` (519) with the ids it returned, after `removeFrames` (521). -/
inductive Act where
  | out | start
  | origin (o : Option Nat)
  | both (o d : Option Nat)
  | worked (o : Option Nat) (en : List Int)
  | fin (en : List Int)
  deriving DecidableEq, Repr

/-- The pool; the queue written by each filter; the state of each filter; what each worker is doing
(src/WorkersPool.cpp:81-139). -/
structure S (σ α : Type) where
  pool : P
  ring : Nat → Ring α
  mem : Nat → σ
  act : Nat → Act

/-- Before any filter is given to the pool: queue `k` has `size k` buffers
(src/AVFramedQueue.cpp:29-38), filter `k` has id `k`. -/
def S.init {σ α : Type} (size : Nat → Nat) (d : Nat → Nat → α) (m : Nat → σ) (time : Nat → Nat) : S σ α :=
  { pool := P.init (fun k => (k : Int)) time, ring := fun k => Ring.create (size k) (d k), mem := m
    act := fun _ => .out }

/-- `add k`: `addTask` (src/WorkersPool.cpp:162-177).  `pick w now`: a worker looks for a job (89-114).
`look w`: `demandOriginFrames` (src/Filter.cpp:548-571, 631-658).  `slot w`: `demandDestinationFrames`
(173-199).  `work w x`: `runDoProcessFrame` and `addFrames` (516-519, 201-217); `x` is what a head
filter has got from outside.  `drop w`: `removeFrames` (219-238).  `done w t`, `post w`: the end of
`processFrame` and the second critical section (src/WorkersPool.cpp:118-136). -/
inductive Op (α : Type) where
  | add (k : Nat) | pick (w now : Nat)
  | look (w : Nat) | slot (w : Nat) | work (w : Nat) (x : Option α) | drop (w : Nat)
  | done (w t : Nat) | post (w : Nat)
  deriving DecidableEq, Repr

/-- `ran k x y`: filter `k` has processed the frame `x` and committed the frame `y` (src/Filter.cpp:516-519). -/
inductive Out (α : Type) where
  | quiet | ran (k : Nat) (x y : Option α)
  deriving DecidableEq, Repr

variable {σ α : Type}

/-- Run a step of the pool (src/WorkersPool.cpp:81-186, see `Pool.P.step`). -/
def S.onPool (s : S σ α) (op : Pool.Op) (f : P → Pool.Out → S σ α) : Outcome (S σ α × Out α) :=
  (s.pool.step op).bind fun (p, o) => .ok (f p o, .quiet)

/-- src/Filter.cpp:548-571, 631-658, 510-514: a filter without readers needs no frame; a filter that
finds no new frame leaves. -/
def S.look (s : S σ α) (w k : Nat) : S σ α :=
  match k with
  | 0 => { s with act := set s.act w (.origin none) }
  | j + 1 =>
    match (s.ring j).getFront with
    | none => { s with act := set s.act w (.fin []) }
    | some i => { s with act := set s.act w (.origin (some i)) }

/-- src/Filter.cpp:173-199: a filter without writers needs no frame; the others ask by force. -/
def S.slot (c : Chain σ α) (s : S σ α) (w k : Nat) (o : Option Nat) : Outcome (S σ α × Out α) :=
  if k = c.last then .ok ({ s with act := set s.act w (.both o none) }, .quiet)
  else ((s.ring k).writerSlot true).bind fun (r, d) =>
    .ok ({ s with ring := set s.ring k r, act := set s.act w (.both o d) }, .quiet)

/-- src/Filter.cpp:201-217 with src/AVFramedQueue.cpp:65-79: the consumed frame is committed and the
id of the filter that reads the queue is returned. -/
def S.commit (s : S σ α) (w k : Nat) (o d : Option Nat) (x y : Option α) : Outcome (S σ α × Out α) :=
  match d, y with
  | some i, some v =>
    (((s.ring k).write i v).addFrame).bind fun r =>
      .ok ({ s with ring := set s.ring k r, act := set s.act w (.worked o [(k : Int) + 1]) }, .ran k x y)
  | _, _ => .ok ({ s with act := set s.act w (.worked o []) }, .ran k x none)

/-- src/Filter.cpp:516-519. -/
def S.work (c : Chain σ α) (s : S σ α) (w k : Nat) (o d : Option Nat) (x : Option α) :
    Outcome (S σ α × Out α) :=
  match k, o with
  | 0, _ => s.commit w 0 o d none x
  | j + 1, some i =>
    let v := (s.ring j).slots i
    let (m, y) := c.work (j + 1) (s.mem (j + 1)) v
    ({ s with mem := set s.mem (j + 1) m } : S σ α).commit w (j + 1) o d (some v) y
  | _ + 1, none => .ub

/-- src/Filter.cpp:521, 219-238. -/
def S.drop (s : S σ α) (w k : Nat) (en : List Int) : Outcome (S σ α × Out α) :=
  match k with
  | 0 => .ok ({ s with act := set s.act w (.fin en) }, .quiet)
  | j + 1 => (s.ring j).removeFrame.bind fun (r, _) =>
    .ok ({ s with ring := set s.ring j r, act := set s.act w (.fin en) }, .quiet)

/-- src/Filter.cpp:240-250 `pendingJobs`. -/
def S.pending (s : S σ α) : Nat → Bool
  | 0 => false
  | j + 1 => decide (0 < (s.ring j).getElements)

/-- One step, see `Op` for the lines; a periodic filter appends its own id (src/Filter.cpp:493-495). -/
def S.step (c : Chain σ α) (s : S σ α) : Op α → Outcome (S σ α × Out α)
  | .add k => if c.last < k then .ok (s, .quiet) else s.onPool (.add k) fun p _ => { s with pool := p }
  | .pick w now => s.onPool (.pick w now) fun p o =>
      match o with
      | .picked _ => { s with pool := p, act := set s.act w .start }
      | _ => { s with pool := p }
  | .look w =>
    match s.pool.ph w, s.act w with
    | .run k, .start => .ok (s.look w k, .quiet)
    | _, _ => .ok (s, .quiet)
  | .slot w =>
    match s.pool.ph w, s.act w with
    | .run k, .origin o => s.slot c w k o
    | _, _ => .ok (s, .quiet)
  | .work w x =>
    match s.pool.ph w, s.act w with
    | .run k, .both o d => s.work c w k o d x
    | _, _ => .ok (s, .quiet)
  | .drop w =>
    match s.pool.ph w, s.act w with
    | .run k, .worked _ en => s.drop w k en
    | _, _ => .ok (s, .quiet)
  | .done w t =>
    match s.act w with
    | .fin _ => s.onPool (.done w t) fun p _ => { s with pool := p }
    | _ => .ok (s, .quiet)
  | .post w =>
    match s.pool.ph w, s.act w with
    | .post k, .fin en =>
      s.onPool (.post w (if k = 0 then en ++ [0] else en) (s.pending k)) fun p _ =>
        { s with pool := p, act := set s.act w .out }
    | _, _ => .ok (s, .quiet)

end Lms.Flow
