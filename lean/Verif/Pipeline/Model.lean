import Verif.Common.Outcome

/-!
# Model of the pipeline manager (src/PipelineManager.cpp, src/Path.cpp)

The two registries of the manager, the tasks of its worker pool and the heap objects (filters and
paths) they point to.  A filter object is a `Nat` (its allocation number), so deleting an object twice
or using it afterwards is visible as undefined behaviour.  What happens inside a filter (its readers,
writers, queues) is not part of this model: the result of `connect*`/`handleGrouping` and of
`disconnectReader`, the ids made by `generate*ID` and whether a type name is known enter as part of the
request, and every value of them is considered.  The effects inside the pool (queue, workers) are
modelled in `Verif.Pool`; here the pool is the map `runnables`.  `std::map`s are association lists in
insertion order: the only iteration whose order matters (the one in `stop`) is treated for every order.
-/

namespace Lms.Pipeline

/-- src/Path.hh, src/Path.cpp:28-37. -/
structure Path where
  org : Int
  dst : Int
  orgW : Int
  dstR : Int
  mids : List Int
  deriving DecidableEq, Repr

/-- src/Path.cpp:50-62 `hasFilter`. -/
def Path.hasFilter (p : Path) (f : Int) : Bool :=
  p.mids.contains f || (f == p.org || f == p.dst)

/-- An association list as a `std::map`: lookup (src/PipelineManager.cpp:214-219, 224-228). -/
def lookup {β : Type} (m : List (Int × β)) (k : Int) : Option β :=
  match m with
  | [] => none
  | (k', v) :: r => if k' = k then some v else lookup r k

/-- An association list as a `std::map`: erase (src/PipelineManager.cpp:386, 410). -/
def erase {β : Type} (m : List (Int × β)) (k : Int) : List (Int × β) := m.filter fun e => e.1 ≠ k

/-- src/PipelineManager.hh: `filters`, `paths`, `pool` (`none`: null pointer; otherwise its
`runnables`).  `freedPaths`: ids in `paths` whose `Path` has been deleted.  `next`: number of filter
objects allocated.  `deleted`: filter objects deleted.  `workers`: the threads of the pool exist (src/PipelineManager.hh:197-199). -/
structure S where
  filters : List (Int × Nat)
  paths : List (Int × Path)
  freedPaths : List Int
  pool : Option (List (Int × Nat))
  workers : Bool
  next : Nat
  deleted : List Nat
  deriving DecidableEq, Repr

/-- src/PipelineManager.cpp:43-47. -/
def S.init : S :=
  { filters := [], paths := [], freedPaths := [], pool := some [], workers := true, next := 0
    deleted := [] }

/-- src/PipelineManager.cpp:118-181 `createFilter` with 183-210 `addFilter` (the checks of `addFilter`
repeat those of `createFilter`; `setId` succeeds on a new object, src/Runnable.cpp:71-85; the result of
`addTask`, src/WorkersPool.cpp:162-177, is ignored).  `known`: the type is one of the known ones. -/
def createFilter (s : S) (id : Int) (known : Bool) : S × Bool :=
  if id < 0 ∨ (lookup s.filters id).isSome then (s, false)
  else if !known then (s, false)
  else
    let o := s.next
    let s := { s with next := o + 1, filters := s.filters ++ [(id, o)] }
    let s := match s.pool with
      | none => { s with pool := some [], workers := true }
      | some _ => s
    match s.pool with
    | none => (s, true)
    | some rs =>
      if (lookup rs id).isSome then (s, true) else ({ s with pool := some (rs ++ [(id, o)]) }, true)

/-- src/PipelineManager.cpp:231-284 `createPath`; `gw`, `gr` are the ids `generateWriterID` and
`generateReaderID` would return.  Sorting and `std::unique` detect repetitions. -/
def createPath (s : S) (id org dst w r : Int) (mids : List Int) (gw gr : Int) : S × Bool :=
  if (lookup s.paths id).isSome then (s, false)
  else if (lookup s.filters org).isNone then (s, false)
  else if (lookup s.filters dst).isNone then (s, false)
  else if mids.any fun m => (lookup s.filters m).isNone || m == org || m == dst then (s, false)
  else if ¬ mids.Nodup then (s, false)
  else
    let p : Path := { org := org, dst := dst, orgW := if w < 0 then gw else w
                      dstR := if r < 0 then gr else r, mids := mids }
    ({ s with paths := s.paths ++ [(id, p)] }, true)

/-- src/PipelineManager.cpp:287-335 `connectPath`; `res` is the result of the connections attempted
(306-334).  `filters[x]` of an unknown id is a null pointer, and calling a method on it undefined
behaviour. -/
def connectPath (s : S) (id : Int) (res : Bool) : Outcome (S × Bool) :=
  match lookup s.paths id with
  | none => .ok (s, false)
  | some p =>
    if id ∈ s.freedPaths then .ub
    else if p.mids.any fun m => (lookup s.filters m).isNone then .ok (s, false)
    else if (lookup s.filters p.org).isNone then .ub
    else if (lookup s.filters p.dst).isNone then .ub
    else .ok (s, res)

/-- src/WorkersPool.cpp:179-195 `removeTask` (on a null pool: undefined behaviour). -/
def removeTask (s : S) (id : Int) : Outcome S :=
  match s.pool with
  | none => .ub
  | some rs => .ok { s with pool := some (erase rs id) }

/-- src/PipelineManager.cpp:447-449, 468-470, 474-476: `removeTask`, `delete filters[id]`, erase.
`filters[id]` of an unknown id is null and deleting it does nothing. -/
def dropFilter (s : S) (id : Int) : Outcome S :=
  (removeTask s id).bind fun s =>
    match lookup s.filters id with
    | none => Outcome.ok s
    | some o =>
      if o ∈ s.deleted then Outcome.ub
      else Outcome.ok { s with deleted := o :: s.deleted, filters := erase s.filters id }

/-- src/PipelineManager.cpp:445-450: the intermediate filters, last first.  `disconnectReader` on an
unknown filter would be a null dereference. -/
def dropMids : S → List Int → Outcome S
  | s, [] => .ok s
  | s, m :: ms =>
    if (lookup s.filters m).isNone then .ub
    else (dropFilter s m).bind fun s => dropMids s ms

/-- src/PipelineManager.cpp:452-465: does another path have this filter; reading a deleted path is
undefined behaviour. -/
def usedByOthers (s : S) (id f : Int) : Bool := s.paths.any fun e => e.1 ≠ id && e.2.hasFilter f

/-- src/PipelineManager.cpp:416-482 `deletePath`; `disc` is the result of `disconnectReader` on the
destination (439). -/
def deletePath (s : S) (id : Int) (disc : Bool) : Outcome (S × Bool) :=
  match lookup s.paths id with
  | none => .ok (s, false)
  | some p =>
    if id ∈ s.freedPaths then .ub
    else if (lookup s.filters p.org).isNone ∨ (lookup s.filters p.dst).isNone then .ok (s, false)
    else if p.mids.any fun m => (lookup s.filters m).isNone then .ok (s, false)
    else if !disc then .ok (s, false)
    else
      (dropMids s p.mids.reverse).bind fun s =>
      if s.paths.any fun e => e.1 ≠ id && s.freedPaths.contains e.1 then Outcome.ub
      else
        (if usedByOthers s id p.dst then Outcome.ok s else dropFilter s p.dst).bind fun s =>
        (if usedByOthers s id p.org then Outcome.ok s else dropFilter s p.org).bind fun s =>
        Outcome.ok ({ s with freedPaths := id :: s.freedPaths }, true)

/-- src/PipelineManager.cpp:375-389 `removePath`. -/
def removePath (s : S) (id : Int) (disc : Bool) : Outcome (S × Bool) :=
  match lookup s.paths id with
  | none => .ok (s, true)
  | some _ =>
    (deletePath s id disc).bind fun (s, r) =>
      if !r then Outcome.ok (s, false)
      else Outcome.ok ({ s with paths := erase s.paths id
                                freedPaths := s.freedPaths.filter (· ≠ id) }, true)

/-- src/PipelineManager.cpp:391-414 `removeFilter`. -/
def removeFilter (s : S) (id : Int) : Outcome (S × Bool) :=
  match lookup s.filters id with
  | none => .ok (s, false)
  | some o =>
    if s.paths.any fun e => s.freedPaths.contains e.1 then .ub
    else if s.paths.any fun e => e.2.hasFilter id then .ok (s, false)
    else
      (removeTask s id).bind fun s =>
      if o ∈ s.deleted then Outcome.ub
      else Outcome.ok ({ s with filters := erase s.filters id, deleted := o :: s.deleted }, true)

/-- src/PipelineManager.cpp:82-87: the loop over the paths; `discs` gives the results of
`disconnectReader`. -/
def stopPaths (disc : Int → Bool) : S → List (Int × Path) → Outcome (S × Bool)
  | s, [] => .ok (s, true)
  | s, e :: es =>
    (deletePath s e.1 (disc e.1)).bind fun (s, r) =>
      if !r then Outcome.ok (s, false) else stopPaths disc s es

/-- src/PipelineManager.cpp:92-94: delete every filter still registered. -/
def deleteAll : List Nat → List (Int × Nat) → Outcome (List Nat)
  | del, [] => .ok del
  | del, e :: es => if e.2 ∈ del then .ub else deleteAll (e.2 :: del) es

/-- src/PipelineManager.cpp:72-105 `stop`; `order` is the order in which the map enumerates the
paths. -/
def stop (s : S) (order : List (Int × Path)) (disc : Int → Bool) : Outcome (S × Bool) :=
  match s.pool with
  | none => .ok (s, false)
  | some _ =>
    let s := { s with workers := false }
    (stopPaths disc s order).bind fun (s, r) =>
      if !r then Outcome.ok (s, false)
      else
        (deleteAll s.deleted s.filters).bind fun del =>
          Outcome.ok ({ s with paths := [], freedPaths := [], filters := [], deleted := del, pool := none }, true)

/-- The requests. -/
inductive Op where
  | createFilter (id : Int) (known : Bool)
  | createPath (id org dst w r : Int) (mids : List Int) (gw gr : Int)
  | connectPath (id : Int) (res : Bool)
  | removePath (id : Int) (disc : Bool)
  | removeFilter (id : Int)
  | stop (disc : Int → Bool)

/-- One request.
Calls `createFilter` (src/PipelineManager.cpp:118-181), `createPath` (src/PipelineManager.cpp:231-284), `connectPath`
(src/PipelineManager.cpp:287-335), `removePath` (src/PipelineManager.cpp:375-389), `removeFilter`
(src/PipelineManager.cpp:391-414), `stop` (src/PipelineManager.cpp:72-105). -/
def step (s : S) : Op → Outcome (S × Bool)
  | .createFilter id k => .ok (createFilter s id k)
  | .createPath id org dst w r mids gw gr => .ok (createPath s id org dst w r mids gw gr)
  | .connectPath id res => connectPath s id res
  | .removePath id disc => removePath s id disc
  | .removeFilter id => removeFilter s id
  | .stop disc => stop s s.paths disc

end Lms.Pipeline
