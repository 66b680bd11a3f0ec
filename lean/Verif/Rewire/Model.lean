import Verif.Net.Ends

/-!
# Connections that change while frames flow (src/Filter.cpp, src/IOInterface.cpp, src/WorkersPool.cpp)

`Net` follows the frames through a network that stays as it is.  Here filters are connected, begin and cease
to share readers and are disconnected while the others run.  Each such call is one step; that its parts may
be taken as one is the subject of `LinkRace`, as is what happens when a filter concerned is at work.  No
filter is removed; `Retire` adds that.
-/

namespace Lms.Rewire

open Net (Graph S)
open FrameQueue (Ring)
open SharedReader (Rd)

variable {α : Type}

/-- The connections, the filters and workers, and which queues there are (src/Filter.cpp:252-284, 321-364;
a queue is deleted when both ends have let go, src/IOInterface.cpp:43-58, 283-296). -/
structure D (α : Type) where
  g : Graph
  s : S α
  live : Nat → Bool

/-- No connection yet; what stands in the place of a queue that is not there is of no importance. -/
def noLinks (periodic : Nat → Bool) : Graph :=
  { ins := fun _ => [], outs := fun _ => [], src := fun _ => 0, dst := fun _ => [], periodic := periodic }

/-- Filters without connections (src/Filter.cpp:32-74). -/
def D.init (periodic : Nat → Bool) (d : α) (time : Nat → Nat) : D α :=
  { g := noLinks periodic, s := S.init (noLinks periodic) (fun _ => 3) (fun _ _ => d) time, live := fun _ => false }

/-- `flow op`: a step of the workers or the pool.  `connect w r q size d`: filter `w` is connected to filter
`r` by a new queue `q` (src/Filter.cpp:321-364).  `share q k`: filter `k` begins to share the reader of `q`
(252-284).  `leave q k`: filter `k` is disconnected from a reader it shares (src/Filter.cpp:415-445,
src/IOInterface.cpp:194-212).  `cut q`: the writer, or the only filter that reads, is disconnected
(src/Filter.cpp:447-474, src/IOInterface.cpp:214-253, 298-313). -/
inductive Op (α : Type) where
  | flow (op : Net.Op α)
  | connect (w r q size : Nat) (d : Nat → α) | share (q k : Nat) | leave (q k : Nat) | cut (q : Nat)

/-- What there is to be seen of it. -/
inductive Out (α : Type) where
  | flow (o : Net.Out α)
  | linked (q : Nat) | joined (q k : Nat) | left (q k : Nat) | cut (q : Nat)

/-- A new queue between two filters (src/Filter.cpp:349-361); where it stands among the others is a matter
of its id and of no importance. -/
def link (g : Graph) (w r q : Nat) : Graph :=
  { g with ins := Pool.set g.ins r (g.ins r ++ [q]), outs := Pool.set g.outs w (g.outs w ++ [q])
           src := Pool.set g.src q w, dst := Pool.set g.dst q [r] }

/-- One more filter on a reader (src/Filter.cpp:252-284, src/IOInterface.cpp:60-68). -/
def join (g : Graph) (q k : Nat) : Graph :=
  { g with ins := Pool.set g.ins k (g.ins k ++ [q]), dst := Pool.set g.dst q (g.dst q ++ [k]) }

/-- One filter fewer on a reader (src/IOInterface.cpp:194-212). -/
def unjoin (g : Graph) (q k : Nat) : Graph :=
  { g with ins := Pool.set g.ins k ((g.ins k).filter (· ≠ q)), dst := Pool.set g.dst q ((g.dst q).filter (· ≠ k)) }

/-- A queue no more connected (src/IOInterface.cpp:43-58, 283-296). -/
def unlink (g : Graph) (q : Nat) : Graph :=
  { g with ins := fun k => (g.ins k).filter (· ≠ q), outs := fun k => (g.outs k).filter (· ≠ q)
           dst := Pool.set g.dst q [] }

/-- The queues a step looks at or writes to: `framesSync` those of all readers (src/Filter.cpp:573-618),
`demandOriginFrames`, `demandDestinationFrames`, `addFrames` and `removeFrames` one (620-646, 178-238),
`runDoProcessFrame` those of the frames it is given (516), `pendingJobs` those of all readers (240-250). -/
def touches (g : Graph) (s : S α) (op : Net.Op α) : List Nat :=
  match op.by with
  | none => []
  | some w =>
    match s.pool.ph w, op, s.act w with
    | .run k, .begin _ _, .start => g.ins k
    | .run _, .look _, .look (q :: _) _ => [q]
    | .run _, .skip _, .look [] got => got.map Prod.fst
    | .run _, .slot _, .slots (q :: _) _ _ => [q]
    | .run _, .work _ _, .slots [] got ds => got.map Prod.fst ++ ds.map Prod.fst
    | .run _, .commit _, .commit (x :: _) _ _ => [x.1]
    | .run _, .drop _, .drop (q :: _) _ => [q]
    | .post k, .post _, _ => g.ins k
    | _, _, _ => []

/-- One step.  To use a queue that is not there is undefined.
Calls `link` (src/Filter.cpp:349-361), `join` (src/Filter.cpp:252-284), `unjoin` (src/IOInterface.cpp:194-212), `unlink`
(src/IOInterface.cpp:43-58, 283-296), `touches` (src/Filter.cpp:573-618). -/
def D.step (x : D α) : Op α → Outcome (D α × Out α)
  | .flow op =>
    if (touches x.g x.s op).all x.live then (x.s.step x.g op).bind fun (s, o) => .ok ({ x with s := s }, .flow o)
    else .ub
  | .connect w r q size d =>
    .ok ({ g := link x.g w r q
           s := { x.s with rd := Pool.set x.s.rd q (Rd.create (Ring.create size d) r) }
           live := Pool.set x.live q true }, .linked q)
  | .share q k =>
    if x.live q then
      .ok ({ x with g := join x.g q k, s := { x.s with rd := Pool.set x.s.rd q ((x.s.rd q).addReader k).1 } }, .joined q k)
    else .ub
  | .leave q k =>
    if x.live q then
      .ok ({ x with g := unjoin x.g q k, s := { x.s with rd := Pool.set x.s.rd q ((x.s.rd q).disconnect k).1 } }, .left q k)
    else .ub
  | .cut q =>
    if x.live q then
      .ok ({ g := unlink x.g q
             s := { x.s with rd := Pool.set x.s.rd q { x.s.rd q with frame := none, filters := [], ready := true } }
             live := Pool.set x.live q false }, .cut q)
    else .ub

end Lms.Rewire
