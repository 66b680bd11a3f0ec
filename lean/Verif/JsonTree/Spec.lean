import Verif.JsonTree.Model

/-!
# Trees as values

Each variable holds a tree of its own; there is no memory.
-/

namespace Lms.JsonTree

open Json (Str VType)

/-- The child a step leads to. -/
def Tree.child : Tree → Step → Option Nat
  | .node b l, s => s.at b l
  | .val _ _, _ => none

/-- The children of a tree. -/
def Tree.kids : Tree → List (Str × Tree)
  | .node _ l => l
  | .val _ _ => []

/-- The subtree at a path. -/
def Tree.get : Tree → List Step → Option Tree
  | t, [] => some t
  | .node b l, s :: p => match (s.at b l).bind (l[·]?) with
    | some (_, c) => c.get p
    | none => none
  | .val _ _, _ :: _ => none

/-- The tree with the subtree at a path replaced. -/
def Tree.put : Tree → List Step → Tree → Tree
  | _, [], u => u
  | .node b l, s :: p, u => match s.at b l with
    | some i => match l[i]? with
      | some (k, c) => .node b (l.set i (k, c.put p u))
      | none => .node b l
    | none => .node b l
  | .val t s, _ :: _, _ => .val t s

/-- The trees the variables hold. -/
abbrev Env := Nat → Option Tree

/-- One variable changed. -/
def Env.to (e : Env) (v : Nat) (t : Option Tree) : Env := fun w => if w = v then t else e w

/-- The tree a reference designates. -/
def Env.find (e : Env) (r : Ref) (k : Tree → Env × Out) : Env × Out :=
  match e r.v with
  | none => (e, .none)
  | some t => match t.get r.p with
    | none => (e, .thrown)
    | some u => k u

/-- The tree a reference designates replaced. -/
def Env.write (e : Env) (r : Ref) (u : Tree) : Env := e.to r.v ((e r.v).map fun t => t.put r.p u)

/-- The kind of a tree. -/
def Tree.kind : Tree → Option Bool
  | .val _ _ => none
  | .node b _ => some b

/-- A container with one more child. -/
def Env.addTo (e : Env) (r : Ref) (u : Tree) (kind : Bool) (k : Str) (src : Ref) : Env × Out :=
  e.find src fun c =>
    if u.kind = some kind then (e.write r (.node kind (u.kids ++ [(k, c)])), .done) else (e, .thrown)

/-- A container with one child less. -/
def Env.removeIdx (e : Env) (r : Ref) (u : Tree) (kind : Bool) (s : Step) : Env × Out :=
  if u.kind = some kind then
    match s.at kind u.kids with
    | some i => (e.write r (.node kind (u.kids.eraseIdx i)), .done)
    | none => (e, .done)
  else (e, .thrown)

/-- What each step does to values. -/
def Env.step (e : Env) : Op → Env × Out
  | .mkVal v t s => if (e v).isSome then (e, .none) else (e.to v (some (.val t s)), .done)
  | .mkNode v b => if (e v).isSome then (e, .none) else (e.to v (some (.node b [])), .done)
  | .copy v kind r => if (e v).isSome then (e, .none) else
      e.find r fun u => if u.kind = kind then (e.to v (some u), .done) else (e, .thrown)
  | .add r k src => e.find r fun u => e.addTo r u true k src
  | .push r src => e.find r fun u => e.addTo r u false [] src
  | .remove r k => e.find r fun u => e.removeIdx r u true (.name k)
  | .removeAt r i => e.find r fun u => e.removeIdx r u false (.idx i)
  | .clear r => e.find r fun u => match u.kind with
      | some b => (e.write r (.node b []), .done)
      | none => (e, .thrown)
  | .set r t s => e.find r fun u => if u.kind = none then (e.write r (.val t s), .done) else (e, .thrown)
  | .look r => e.find r fun u => (e, .tree u)
  | .has r k => e.find r fun u => if u.kind = some true then (e, .ans (u.kids.any fun c => c.1 = k)) else (e, .thrown)
  | .count r => e.find r fun u => (e, .num u.kids.length)
  | .destroy v => if (e v).isSome then (e.to v none, .done) else (e, .none)
  | .assign _ _ => (e, .none)

/-- A program and what it gets. -/
def Env.run (e : Env) : List Op → Env × List Out
  | [] => (e, [])
  | o :: os => let r := e.step o; let r' := r.1.run os; (r'.1, r.2 :: r'.2)

/-- A program of the code and what it gets. -/
def M.run (m : M) : List Op → Outcome (M × List Out)
  | [] => .ok (m, [])
  | o :: os => (m.step o).bind fun (m', x) => (m'.run os).map fun (m'', xs) => (m'', x :: xs)

/-- The program does not assign an `Object` or an `Array`. -/
def NoAssign (ops : List Op) : Prop := ∀ v w, Op.assign v w ∉ ops

/-- The place holds a node that has not been deleted. -/
def Cell.Live : Cell → Prop
  | .val _ _ => True
  | .node _ _ => True
  | _ => False

/-- The node at `x` belongs to the tree rooted at `a`. -/
inductive Owns (h : H) : Nat → Nat → Prop
  | self {a} : (h.cell a).Live → Owns h a a
  | kid {a b l k c x} : h.cell a = .node b l → (k, c) ∈ l → Owns h c x → Owns h a x

/-- The step takes no node away. -/
def Op.Keeps : Op → Prop
  | .remove _ _ | .removeAt _ _ | .clear _ | .destroy _ | .assign _ _ => False
  | _ => True

/-- The variable the step may change. -/
def Op.target : Op → Option Nat
  | .mkVal v _ _ | .mkNode v _ | .copy v _ _ | .destroy v | .assign v _ => some v
  | .add r _ _ | .push r _ | .remove r _ | .removeAt r _ | .clear r | .set r _ _ => some r.v
  | .look _ | .has _ _ | .count _ => none

end Lms.JsonTree
