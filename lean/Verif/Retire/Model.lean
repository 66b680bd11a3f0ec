import Verif.Rewire.Props

/-!
# Filters that come and go while frames flow (src/PipelineManager.cpp, src/WorkersPool.cpp, src/Filter.cpp)

`Rewire` follows the frames while connections are made and cut between filters that stay.  Here filters are
made, given to the pool, removed from it and deleted while the others run.  To use a filter that is not there
is undefined.
-/

namespace Lms.Retire

open Rewire (D)
open Net (S)

variable {α : Type}

/-- The network, and which filters are not there: not made yet or deleted (the map `filters` and the objects
in it, src/PipelineManager.cpp:391-414). -/
structure R (α : Type) where
  x : D α
  gone : Nat → Bool

/-- Nothing yet (src/PipelineManager.cpp:43-47). -/
def R.init (d : α) (time : Nat → Nat) : R α := { x := D.init (fun _ => false) d time, gone := fun _ => true }

/-- `net op`: the workers, `addTask`, or a change of connections (see `Rewire.Op`).  `create k t p`: a filter
is made under the id `k`, with time `t`, periodic or not (src/PipelineManager.cpp:118-205, src/Runnable.cpp:30);
it is given to the pool by an `addTask` that follows (209).  `remove k`: `removeTask` takes it out of the map
(src/WorkersPool.cpp:179-186).  `delete k`: the loop 187-190 has seen that it does not run, and it is deleted
(src/PipelineManager.cpp:409-411, 447-449, 468-470, 474-476).  What its destructor does to its readers
(src/Filter.cpp:39-50) are changes of connections before. -/
inductive Op (α : Type) where
  | net (op : Rewire.Op α)
  | create (k t : Nat) (periodic : Bool) | remove (k : Nat) | delete (k : Nat)

/-- What there is to be seen of it. -/
inductive Out (α : Type) where
  | net (o : Rewire.Out α)
  | created (k : Nat) | removed (k : Nat) | deleted (k : Nat) | refused

/-- The filters a step looks at.  `addTask` asks the new one and `pushBack` resets an iterator over the queued
ones (src/WorkersPool.cpp:162-177); a worker that looks for a job asks the queued ones (89-105); one that has a
job uses it (118-121); when it is done with it, it asks it for pending jobs and appends to the queue those it
finds registered (123-132).  To connect is to call both filters (src/Filter.cpp:321-364), to share and to leave
the one concerned (252-284, 415-445), to cut one of those at the ends (447-474). -/
def uses (x : D α) : Rewire.Op α → List Nat
  | .flow (.add k) => k :: x.s.pool.q.queue
  | .flow (.pick _ _) => x.s.pool.q.queue
  | .flow op =>
    match op.by with
    | none => []
    | some w =>
      match x.s.pool.ph w, x.s.act w with
      | .idle, _ => []
      | .run k, _ => [k]
      | .post k, .drop _ en => k :: (x.s.pool.q.queue ++ en.filterMap x.s.pool.reg)
      | .post k, _ => [k]
  | .connect w r _ _ _ => [w, r]
  | .share _ k => [k]
  | .leave _ k => [k]
  | .cut q => x.g.src q :: x.g.dst q

/-- One step; see `Op` for the lines.  A filter is not made under an id there is already
(src/PipelineManager.cpp:122-125), and what is not there is not deleted twice. -/
def R.step (r : R α) : Op α → Outcome (R α × Out α)
  | .net op =>
    if (uses r.x op).any r.gone then .ub
    else (r.x.step op).bind fun (x, o) => .ok ({ r with x := x }, .net o)
  | .create k t p =>
    if r.gone k then
      .ok ({ x := { r.x with g := { r.x.g with periodic := Pool.set r.x.g.periodic k p }
                             s := { r.x.s with pool := { r.x.s.pool with time := Pool.set r.x.s.pool.time k t } } }
             gone := Pool.set r.gone k false }, .created k)
    else .ok (r, .refused)
  | .remove k =>
    (r.x.s.pool.step (.remove (k : Int))).bind fun (p, _) =>
      .ok ({ r with x := { r.x with s := { r.x.s with pool := p } } }, .removed k)
  | .delete k =>
    if r.gone k then .ub else .ok ({ r with gone := Pool.set r.gone k true }, .deleted k)

end Lms.Retire
