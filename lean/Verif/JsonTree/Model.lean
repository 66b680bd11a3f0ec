import Verif.Common.Outcome
import Verif.Json.Model

/-!
# JSON trees in memory (src/Jzon.cpp)

The nodes of a tree are objects on the heap, each owned by a pointer in its parent's vector (src/Jzon.h:255-257,
319-321), the roots are variables of the program.  The children of an `Array` have no names and are given the
empty one.  Programs name variables and reach nodes by `Get`, whose references are followed anew in each step;
a step that names a variable that does not exist is no program and does nothing.  A new tree is made children
first, which only decides addresses.  Exceptions leave a step without effect.
-/

namespace Lms.JsonTree

open Json (Str VType)

/-- A place in memory: never used, a `Value` (src/Jzon.h:185-187), an `Object` (`true`) or `Array` with its vector
of children (255-257, 319-321), or deleted. -/
inductive Cell where
  | free
  | val (t : VType) (s : Str)
  | node (isObj : Bool) (l : List (Str × Nat))
  | gone
  deriving DecidableEq

/-- The heap and the address the next `new` returns. -/
structure H where
  cell : Nat → Cell
  next : Nat

/-- The heap with one place changed. -/
def H.put (h : H) (a : Nat) (c : Cell) : H := { h with cell := fun x => if x = a then c else h.cell x }

/-- `new` (src/Jzon.cpp:579, 705 and others). -/
def H.alloc (h : H) (c : Cell) : H × Nat := ({ cell := fun x => if x = h.next then c else h.cell x, next := h.next + 1 }, h.next)

/-- A loop over the children, as in src/Jzon.cpp:543-549, 671-676: the copies of all, in order. -/
def each (f : H → Nat → Outcome (H × Nat)) : H → List (Str × Nat) → Outcome (H × List (Str × Nat))
  | h, [] => .ok (h, [])
  | h, (k, c) :: l => (f h c).bind fun (h1, c1) => (each f h1 l).map fun (h2, l2) => (h2, (k, c1) :: l2)

/-- `GetCopy` (src/Jzon.cpp:448-451, 660-663, 769-772) with the copying constructors (219-222, 541-550, 669-677).
The first argument bounds the depth. -/
def copyN : Nat → H → Nat → Outcome (H × Nat)
  | 0, _, _ => .hang
  | n + 1, h, a =>
    match h.cell a with
    | .val t s => .ok (h.alloc (.val t s))
    | .node b l => (each (copyN n) h l).map fun (h', l') => h'.alloc (.node b l')
    | _ => .ub

/-- The loop of `Clear` (src/Jzon.cpp:593-601, 716-724). -/
def eachDel (f : H → Nat → Outcome H) : H → List (Str × Nat) → Outcome H
  | h, [] => .ok h
  | h, (_, c) :: l => (f h c).bind fun h1 => eachDel f h1 l

/-- `delete`, with the destructors (src/Jzon.cpp:256-258, 563-566, 689-692) and `Clear`. -/
def deleteN : Nat → H → Nat → Outcome H
  | 0, _, _ => .hang
  | n + 1, h, a =>
    match h.cell a with
    | .val _ _ => .ok (h.put a .gone)
    | .node _ l => (eachDel (deleteN n) h l).map fun h' => h'.put a .gone
    | _ => .ub

/-- A tree as a value. -/
inductive Tree where
  | val (t : VType) (s : Str)
  | node (isObj : Bool) (l : List (Str × Tree))

/-- The loop over the children of `writeObject`, `writeArray` (src/Jzon.cpp:897-928, with the iterators of 603-630,
726-753). -/
def eachRead (f : Nat → Outcome Tree) : List (Str × Nat) → Outcome (List (Str × Tree))
  | [] => .ok []
  | (k, c) :: l => (f c).bind fun t => (eachRead f l).map fun ts => (k, t) :: ts

/-- What a reader of the whole tree gets to see. -/
def readN : Nat → H → Nat → Outcome Tree
  | 0, _, _ => .hang
  | n + 1, h, a =>
    match h.cell a with
    | .val t s => .ok (.val t s)
    | .node b l => (eachRead (readN n h) l).map (.node b)
    | _ => .ub

/-- A step of `Get`: by name (src/Jzon.cpp:647-658) or by index (759-767). -/
inductive Step where
  | name (k : Str) | idx (i : Nat)
  deriving DecidableEq

/-- Which child: the first of that name, or the one at the index (src/Jzon.cpp:647, 759). -/
def Step.at {β : Type} (isObj : Bool) (l : List (Str × β)) : Step → Option Nat
  | .name k => if isObj then l.findIdx? (fun e => e.1 = k) else none
  | .idx i => if isObj then none else if i < l.length then some i else none

/-- `Get` along a path, with `AsObject` and `AsArray` (src/Jzon.cpp:152-193); `none` is an exception. -/
def resolve (h : H) : Nat → List Step → Outcome (Option Nat)
  | a, [] => .ok (some a)
  | a, s :: p =>
    match h.cell a with
    | .node b l => match (s.at b l).bind (l[·]?) with
      | some (_, c) => resolve h c p
      | none => .ok none
    | .val _ _ => .ok none
    | _ => .ub

/-- The heap and the variables of the program. -/
structure M where
  h : H
  root : Nat → Option Nat

/-- No variable yet. -/
def M.init : M := { h := { cell := fun _ => .free, next := 0 }, root := fun _ => none }

/-- A variable and a path of `Get`s from it (src/Jzon.cpp:647, 759). -/
structure Ref where
  v : Nat
  p : List Step

/-- Making a variable (src/Jzon.cpp:215-255, 538-540, 666-668) or copying a node into it (219-227, 541-562,
669-688: `AsValue`, `AsObject`, `AsArray` first), `Add` (573-580, 699-706), `Remove` (581-592, 707-715), `Clear`
(593-601, 716-724), `Set` (338-406), reading all, `Has` (632-642), `GetCount` (643-646, 755-758), the end of a
variable's life, and the assignment the compiler makes for `Object` and `Array`, which declare none
(src/Jzon.h:192-258, 260-323). -/
inductive Op where
  | mkVal (v : Nat) (t : VType) (s : Str) | mkNode (v : Nat) (isObj : Bool)
  | copy (v : Nat) (kind : Option Bool) (r : Ref)
  | add (r : Ref) (k : Str) (src : Ref) | push (r : Ref) (src : Ref)
  | remove (r : Ref) (k : Str) | removeAt (r : Ref) (i : Nat) | clear (r : Ref)
  | set (r : Ref) (t : VType) (s : Str)
  | look (r : Ref) | has (r : Ref) (k : Str) | count (r : Ref)
  | destroy (v : Nat)
  | assign (v w : Nat)

/-- What the program gets: nothing, an exception, a tree, an answer, a number, or that there is no such variable. -/
inductive Out where
  | done | thrown | tree (t : Tree) | ans (b : Bool) | num (n : Nat) | none

/-- The variable `v` now holds the node at `a`. -/
def M.bindVar (m : M) (h : H) (v : Nat) (a : Nat) : M := { h := h, root := fun w => if w = v then some a else m.root w }

/-- The node a reference designates, if there is one. -/
def M.find (m : M) (r : Ref) (k : Nat → Outcome (M × Out)) : Outcome (M × Out) :=
  match m.root r.v with
  | none => .ok (m, .none)
  | some a => (resolve m.h a r.p).bind fun
    | none => .ok (m, .thrown)
    | some b => k b

/-- Is the node a `Value` (`none`), an `Object` (`some true`), an `Array` (`some false`)? -/
def kindOf : Cell → Option (Option Bool)
  | .val _ _ => some none
  | .node b _ => some (some b)
  | _ => none

/-- `Add` to a node of the kind asked for (src/Jzon.cpp:573-580, 699-706, 152-179). -/
def M.addTo (m : M) (b : Nat) (kind : Bool) (k : Str) (src : Ref) : Outcome (M × Out) :=
  m.find src fun c =>
    match m.h.cell b with
    | .node kb _ => if kb ≠ kind then .ok (m, .thrown) else
      (copyN m.h.next m.h c).bind fun (h', c') =>
        match h'.cell b with
        | .node kb l => .ok ({ m with h := h'.put b (.node kb (l ++ [(k, c')])) }, .done)
        | _ => .ub
    | .val _ _ => .ok (m, .thrown)
    | _ => .ub

/-- `delete` of the child at `i` and `erase` (src/Jzon.cpp:585-590, 709-714). -/
def M.removeIdx (m : M) (b : Nat) (kb : Bool) (l : List (Str × Nat)) (i : Option Nat) : Outcome (M × Out) :=
  match i.bind (l[·]?), i with
  | some (_, c), some i => (deleteN m.h.next m.h c).map fun h' => ({ m with h := h'.put b (.node kb (l.eraseIdx i)) }, .done)
  | _, _ => .ok (m, .done)

/-- One step.
Calls `H.alloc` (src/Jzon.cpp:579, 705), `copyN` (src/Jzon.cpp:448-451, 660-663, 769-772), `eachDel` (src/Jzon.cpp:593-601,
716-724), `deleteN` (src/Jzon.cpp:256-258, 563-566, 689-692), `Step` (src/Jzon.cpp:647-658), `Step.at` (src/Jzon.cpp:647,
759) and others. -/
def M.step (m : M) : Op → Outcome (M × Out)
  | .mkVal v t s => if (m.root v).isSome then .ok (m, .none) else
      let r := m.h.alloc (.val t s)
      .ok (m.bindVar r.1 v r.2, .done)
  | .mkNode v b => if (m.root v).isSome then .ok (m, .none) else
      let r := m.h.alloc (.node b [])
      .ok (m.bindVar r.1 v r.2, .done)
  | .copy v kind r => if (m.root v).isSome then .ok (m, .none) else
      m.find r fun c =>
        match kindOf (m.h.cell c) with
        | none => .ub
        | some k => if k ≠ kind then .ok (m, .thrown) else
          (copyN m.h.next m.h c).map fun (h', c') => (m.bindVar h' v c', .done)
  | .add r k src => m.find r fun b => m.addTo b true k src
  | .push r src => m.find r fun b => m.addTo b false [] src
  | .remove r k => m.find r fun b =>
      match m.h.cell b with
      | .node true l => m.removeIdx b true l (Step.at true l (.name k))
      | .node false _ | .val _ _ => .ok (m, .thrown)
      | _ => .ub
  | .removeAt r i => m.find r fun b =>
      match m.h.cell b with
      | .node false l => m.removeIdx b false l (Step.at false l (.idx i))
      | .node true _ | .val _ _ => .ok (m, .thrown)
      | _ => .ub
  | .clear r => m.find r fun b =>
      match m.h.cell b with
      | .node kb l => (eachDel (deleteN m.h.next) m.h l).map fun h' => ({ m with h := h'.put b (.node kb []) }, .done)
      | .val _ _ => .ok (m, .thrown)
      | _ => .ub
  | .set r t s => m.find r fun b =>
      match m.h.cell b with
      | .val _ _ => .ok ({ m with h := m.h.put b (.val t s) }, .done)
      | .node _ _ => .ok (m, .thrown)
      | _ => .ub
  | .look r => m.find r fun b => (readN m.h.next m.h b).map fun t => (m, .tree t)
  | .has r k => m.find r fun b =>
      match m.h.cell b with
      | .node true l => .ok (m, .ans (Step.at true l (.name k)).isSome)
      | .node false _ | .val _ _ => .ok (m, .thrown)
      | _ => .ub
  | .count r => m.find r fun b =>
      match m.h.cell b with
      | .node _ l => .ok (m, .num l.length)
      | .val _ _ => .ok (m, .num 0)
      | _ => .ub
  | .destroy v =>
      match m.root v with
      | none => .ok (m, .none)
      | some a => (deleteN m.h.next m.h a).map fun h' => ({ h := h', root := fun w => if w = v then none else m.root w }, .done)
  | .assign v w =>
      match m.root v, m.root w with
      | some a, some b =>
        match m.h.cell a, m.h.cell b with
        | .node ka _, .node kb l => if ka ≠ kb then .ok (m, .none) else .ok ({ m with h := m.h.put a (.node ka l) }, .done)
        | _, _ => .ok (m, .none)
      | _, _ => .ok (m, .none)

end Lms.JsonTree
