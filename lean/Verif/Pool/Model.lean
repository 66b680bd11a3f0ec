import Verif.Common.Outcome

/-!
# Model of the worker pool (src/WorkersPool.cpp, src/Runnable.cpp)

A runnable is a pointer (`Nat`) with an immutable id.  Worker threads and callers interleave at the
granularity of the critical sections of `mtx`; the polling loop of `removeTask` reads the running
flag without the lock.  Condition variables only affect when a worker looks again, so a worker may
look at any moment.  Using a deleted runnable is undefined behaviour; the lookups in the set of queued
tasks (src/WorkersPool.cpp:34, 43) compare ids of queued runnables and are taken to touch all of them.
The number of workers is unbounded.  `stop` (150-160) is not modelled.
-/

namespace Lms.Pool

/-- src/WorkersPool.hh:37-57.  `set` has the ids of the queued runnables (`RunnableLess` compares
ids, src/Runnable.hh:132-138); `iter` is an index, equal to the length at `end()`. -/
structure TQ where
  set : List Int
  queue : List Nat
  iter : Nat
  deriving DecidableEq, Repr

/-- src/WorkersPool.cpp:29-31. -/
def TQ.init : TQ := { set := [], queue := [], iter := 0 }

/-- src/WorkersPool.cpp:49-51 `resetIterator`. -/
def TQ.reset (q : TQ) : TQ := { q with iter := 0 }

/-- src/WorkersPool.cpp:33-39 `pushBack`. -/
def TQ.pushBack (ident : Nat → Int) (q : TQ) (p : Nat) : TQ :=
  if ident p ∈ q.set then q
  else ({ q with set := ident p :: q.set, queue := q.queue ++ [p] }).reset

/-- src/WorkersPool.cpp:41-47 `pop`. -/
def TQ.pop (ident : Nat → Int) (q : TQ) : TQ :=
  match q.queue with
  | [] => q
  | p :: rest => ({ q with set := q.set.erase (ident p), queue := rest }).reset

/-- src/WorkersPool.cpp:58-63 `current`. -/
def TQ.current (q : TQ) : Option Nat := q.queue[q.iter]?

/-- src/WorkersPool.cpp:65-69 `next`. -/
def TQ.next (q : TQ) : TQ := if q.iter < q.queue.length then { q with iter := q.iter + 1 } else q

/-- Where a worker thread is: waiting for a job (88-105), running `processFrame` (118), between
`unsetRunning` and the end of its second critical section (121-134). -/
inductive Ph where
  | idle | run (p : Nat) | post (p : Nat)
  deriving DecidableEq, Repr

/-- `ident`, `running`, `time`, `freed`: per runnable (src/Runnable.hh:121-128).  `reg`: the map
`runnables`.  `ph`: per worker.  `lock`: the worker inside its second critical section. -/
structure P where
  ident : Nat → Int
  q : TQ
  reg : Int → Option Nat
  running : Nat → Bool
  time : Nat → Nat
  freed : Nat → Bool
  ph : Nat → Ph
  lock : Option Nat

/-- A pool before any task is added (src/WorkersPool.cpp:72-142, src/Runnable.cpp:30). -/
def P.init (ident : Nat → Int) (time : Nat → Nat) : P :=
  { ident := ident, q := .init, reg := fun _ => none, running := fun _ => false, time := time
    freed := fun _ => false, ph := fun _ => .idle, lock := none }

def set {α β : Type} [DecidableEq α] (f : α → β) (i : α) (v : β) : α → β := fun j => if j = i then v else f j

/-- src/Runnable.cpp:38-41 `ready`. -/
def P.ready (s : P) (now p : Nat) : Bool := decide (s.time p < now)

/-- src/WorkersPool.cpp:91-105: look for a job from the iterator on; `none` is "wait".  The fuel bounds
the number of iterations. -/
def P.scan (s : P) (now : Nat) : Nat → TQ → Outcome (TQ × Option Nat)
  | 0, _ => .hang
  | n + 1, q =>
    match q.current with
    | none => .ok (q.reset, none)
    | some p =>
      if s.freed p then .ub
      else if !s.running p && !s.ready now p then .ok (q.reset, none)
      else if !s.running p && s.ready now p then
        if q.queue.any s.freed then .ub else .ok (q.pop s.ident, some p)
      else s.scan now n q.next

/-- src/WorkersPool.cpp:89-114: a worker without job looks for one and marks it running. -/
def P.pick (s : P) (w now : Nat) : Outcome (P × Option Nat) :=
  (s.scan now (s.q.queue.length + 1) s.q.reset).bind fun (q, o) =>
    match o with
    | none => .ok ({ s with q := q }, none)
    | some p => .ok ({ s with q := q, running := set s.running p true, ph := set s.ph w (.run p) }, some p)

/-- src/WorkersPool.cpp:127-132. -/
def P.pushAll (s : P) : List Int → Outcome P
  | [] => .ok s
  | id :: ids =>
    match s.reg id with
    | none => s.pushAll ids
    | some p =>
      if (p :: s.q.queue).any s.freed then .ub
      else ({ s with q := s.q.pushBack s.ident p }).pushAll ids

/-- Calls and worker steps.  `add`, `remove`: src/WorkersPool.cpp:162-177, 179-186.  `reap p`: the
loop 187-190 has seen that `p` is not running, `removeTask` returns and its caller deletes the filter
(src/PipelineManager.cpp:391-414).  `pick w now`: 89-114 at time `now`.  `done w t`: `processFrame`
returns, `time` becomes `t` (src/Runnable.cpp:60-69), the lock is taken and the running flag cleared
(118-121).  `post w ids pending`: 123-136 with the ids returned by `processFrame` and the answer of
`pendingJobs`. -/
inductive Op where
  | add (p : Nat) | remove (id : Int) | reap (p : Nat)
  | pick (w now : Nat) | done (w t : Nat) | post (w : Nat) (ids : List Int) (pending : Bool)
  deriving DecidableEq, Repr

/-- `blocked`: the step is not enabled (the lock is held, or the worker is elsewhere). -/
inductive Out where
  | blocked | bool (b : Bool) | picked (p : Nat) | waits | unit
  deriving DecidableEq, Repr

/-- Calls `TQ.pushBack` (src/WorkersPool.cpp:33-39), `P.pick` (src/WorkersPool.cpp:89-114), `P.pushAll`
(src/WorkersPool.cpp:127-132). -/
def P.step (s : P) : Op → Outcome (P × Out)
  | .add p =>
    if s.lock.isSome then .ok (s, .blocked)
    else if s.freed p then .ub
    else if s.ident p < 0 then .ok (s, .bool false)
    else if s.reg (s.ident p) = none then
      if s.q.queue.any s.freed then .ub
      else .ok ({ s with reg := set s.reg (s.ident p) (some p), q := s.q.pushBack s.ident p }, .bool true)
    else .ok (s, .bool false)
  | .remove id =>
    if s.lock.isSome then .ok (s, .blocked)
    else if s.reg id = none then .ok (s, .bool false)
    else .ok ({ s with reg := set s.reg id none }, .bool true)
  | .reap p =>
    if s.freed p ∨ s.reg (s.ident p) = some p ∨ s.running p then .ok (s, .blocked)
    else .ok ({ s with freed := set s.freed p true }, .unit)
  | .pick w now =>
    if s.lock.isSome then .ok (s, .blocked)
    else match s.ph w with
      | .idle => (s.pick w now).bind fun (s', o) =>
          .ok (s', match o with | none => .waits | some p => .picked p)
      | _ => .ok (s, .blocked)
  | .done w t =>
    if s.lock.isSome then .ok (s, .blocked)
    else match s.ph w with
      | .run p =>
        if s.freed p then .ub
        else .ok ({ s with running := set s.running p false, time := set s.time p t
                           ph := set s.ph w (.post p), lock := some w }, .unit)
      | _ => .ok (s, .blocked)
  | .post w ids pending =>
    match s.ph w with
    | .post p =>
      if s.freed p then .ub
      else (s.pushAll (if pending then ids ++ [s.ident p] else ids)).bind fun s' =>
        .ok ({ s' with ph := set s'.ph w .idle, lock := none }, .unit)
    | _ => .ok (s, .blocked)

end Lms.Pool
