import Verif.Control.Model

/-!
# What a client of the control protocol relies on

The meaning of an event as a question to the manager, read off the document in one place, and what the manager answers to it.
-/

namespace Lms.Control

open Lms Lms.Json

/-- The first member of a name. -/
def member (k : String) : Node → Option Node
  | .obj l => l.lookup k.toList
  | _ => none

/-- A node that can be used as an integer. -/
def intOf : Node → Option Int
  | .val .null _ => some 0
  | .val .num s => some (readInt s)
  | _ => none

/-- A node that can be used as a text. -/
def textOf : Node → Option Str
  | .val .null _ => some "null".toList
  | .val _ s => some s
  | _ => none

/-- A node that is a number. -/
def numberOf (n : Node) : Option Int := if isNum n then intOf n else none

/-- The questions. -/
inductive Ask where
  | toFilter (id delay : Int)
  | getState
  | createFilter (id : Int) (type : Str)
  | createPath (id org dst w r : Int) (mids : List Int)
  | removePath (id : Int)
  | removeFilter (id : Int)
  | stop
  | malformed
  | fatal
  deriving DecidableEq

/-- All of them, if each is there. -/
def allSome {α : Type} : List (Option α) → Option (List α)
  | [] => some []
  | none :: _ => none
  | some a :: l => (allSome l).map (a :: ·)

/-- The question of an event `createFilter`. -/
def readCreateFilter (p : Node) : Ask :=
  match member "id" p, member "type" p with
  | some i, some t =>
    match numberOf i, textOf t with
    | none, _ => .malformed
    | some _, none => .fatal
    | some id, some ty => .createFilter id ty
  | _, _ => .malformed

/-- The question of an event `createPath`. -/
def readCreatePath (p : Node) : Ask :=
  match allSome (["id", "orgFilterId", "dstFilterId", "orgWriterId", "dstReaderId"].map fun k => member k p) with
  | none => .malformed
  | some ns =>
    match allSome (ns.map intOf) with
    | some [id, org, dst, w, r] =>
      match member "midFiltersIds" p with
      | some (.arr l) =>
        match allSome (l.map intOf) with
        | some ms => .createPath id org dst w r ms
        | none => .fatal
      | _ => .malformed
    | _ => .fatal

/-- The question of an event that removes something. -/
def readRemove (p : Node) (ask : Int → Ask) : Ask :=
  match (member "id" p).bind numberOf with
  | some id => ask id
  | none => .malformed

/-- The question of an event to the manager itself, with action `a` and parameters `p`. -/
def readOwn (a p : Node) : Ask :=
  match textOf a, p with
  | some act, .obj _ =>
    if act = "getState".toList then .getState
    else if act = "createPath".toList then readCreatePath p
    else if act = "removePath".toList then readRemove p .removePath
    else if act = "createFilter".toList then readCreateFilter p
    else if act = "removeFilter".toList then readRemove p .removeFilter
    else if act = "stop".toList then .stop
    else .malformed
  | _, _ => .fatal

/-- The question of an event: to a filter if it has a numeric `filterId`, otherwise to the manager. -/
def read : Node → Ask
  | .obj l =>
    let e := Node.obj l
    match member "action" e, member "params" e with
    | some a, some p =>
      match (member "filterId" e).bind numberOf with
      | some id => .toFilter id (((member "delay" e).bind numberOf).getD (-1))
      | none => readOwn a p
    | _, _ => .malformed
  | _ => .fatal

/-- A reply that tells of success. -/
def IsDone (r : Reply) : Prop := r = [("error".toList, .val .null [])]

/-- A reply that tells of failure. -/
def IsFailed (r : Reply) : Prop := ∃ text, r = [("error".toList, .val .str text)]

/-- The result of an operation of `Verif.Pipeline` and what the reply says of it. -/
def Tells (s : C) (o : Outcome (Pipeline.S × Bool)) (x : R (C × Reply)) : Prop :=
  match o, x with
  | .ok (s', true), .ok (c, r) => c = { s with pipe := s' } ∧ IsDone r
  | .ok (s', false), .ok (c, r) => c = { s with pipe := s' } ∧ IsFailed r
  | .ub, .ub => True
  | .hang, .ub => True
  | _, _ => False

/-- What the manager does with a question. -/
def Answers (s : C) (env : Env) (e : Node) (x : R (C × Reply)) : Ask → Prop
  | .toFilter id d =>
    (∀ o, Pipeline.lookup s.pipe.filters id = some o → ∃ r, x = .ok ({ s with sent := s.sent ++ [⟨id, o, e, d⟩] }, r) ∧ IsDone r) ∧
    (Pipeline.lookup s.pipe.filters id = none → ∃ r, x = .ok (s, r) ∧ IsFailed r)
  | .getState => x = getState s env
  | .createFilter id t => Tells s (Pipeline.step s.pipe (.createFilter id (decide (t ∈ typeNames.map String.toList)))) x
  | .createPath id org dst w r ms =>
    ((Pipeline.createPath s.pipe id org dst w r ms env.gw env.gr).2 = false ∧
      Tells s (Pipeline.step s.pipe (.createPath id org dst w r ms env.gw env.gr)) x) ∨
    ((Pipeline.createPath s.pipe id org dst w r ms env.gw env.gr).2 = true ∧
      Tells s (Pipeline.step (Pipeline.createPath s.pipe id org dst w r ms env.gw env.gr).1 (.connectPath id env.connected)) x)
  | .removePath id => Tells s (Pipeline.step s.pipe (.removePath id (env.disc id))) x
  | .removeFilter id => Tells s (Pipeline.step s.pipe (.removeFilter id)) x
  | .stop => Tells s (Pipeline.stop s.pipe (byKey s.pipe.paths) env.disc) x
  | .malformed => ∃ r, x = .ok (s, r) ∧ IsFailed r
  | .fatal => x = .dies

/-- What a client makes of one path in a report. -/
def readPath (n : Node) : Option (Int × Pipeline.Path) := do
  let id ← (member "id" n).bind numberOf
  let org ← (member "originFilter" n).bind numberOf
  let dst ← (member "destinationFilter" n).bind numberOf
  let w ← (member "originWriter" n).bind numberOf
  let r ← (member "destinationReader" n).bind numberOf
  match member "filters" n with
  | some (.arr l) => (allSome (l.map numberOf)).map fun ms => (id, ⟨org, dst, w, r, ms⟩)
  | _ => none

/-- What a client makes of a report: the ids of the filters, and the paths. -/
def readReport (r : Reply) : Option (List Int × List (Int × Pipeline.Path)) :=
  match member "filters" (.obj r), member "paths" (.obj r) with
  | some (.arr fs), some (.arr ps) =>
    (allSome (fs.map fun n => (member "id" n).bind numberOf)).bind fun ids =>
    (allSome (ps.map readPath)).map fun paths => (ids, paths)
  | _, _ => none

/-- A 32 bit `int`. -/
def Fits (z : Int) : Prop := -2147483648 ≤ z ∧ z ≤ 2147483647

/-- The numbers of a path are `int`s. -/
def FitsPath (p : Pipeline.Path) : Prop := Fits p.org ∧ Fits p.dst ∧ Fits p.orgW ∧ Fits p.dstR ∧ ∀ m ∈ p.mids, Fits m

end Lms.Control
