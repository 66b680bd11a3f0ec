import Verif.JsonTree.Props

/-!
# Concrete programs
-/

namespace Lms.JsonTree

open Json (Str VType)

/-- An object with a number under `a`, a list holding two copies of the object under `l` of another one. -/
def prog : List Op :=
  [.mkNode 0 true, .mkVal 1 .num ['1'], .add ⟨0, []⟩ ['a'] ⟨1, []⟩, .mkNode 2 false, .push ⟨2, []⟩ ⟨0, []⟩,
   .push ⟨2, []⟩ ⟨0, []⟩, .mkNode 3 true, .add ⟨3, []⟩ ['l'] ⟨2, []⟩]

theorem prog_noAssign : NoAssign prog := by
  intro v w h
  simp [prog] at h

/-- The changes made to the first do not show in the copies; an object can be added to itself. -/
example : gets (prog ++ [.set ⟨0, [.name ['a']]⟩ .num ['2'], .destroy 2, .look ⟨3, [.name ['l'], .idx 1, .name ['a']]⟩,
    .look ⟨0, [.name ['a']]⟩, .add ⟨0, []⟩ ['s'] ⟨0, []⟩, .count ⟨0, [.name ['s']]⟩, .count ⟨0, []⟩]) =
    .ok ([.done, .done, .done, .done, .done, .done, .done, .done] ++
      [.done, .done, .tree (.val .num ['1']), .tree (.val .num ['2']), .done, .num 1, .num 2]) := rfl

/-- What is not there, or of another kind, is an exception. -/
example : gets (prog ++ [.look ⟨0, [.name ['b']]⟩, .push ⟨0, []⟩ ⟨1, []⟩, .look ⟨2, [.idx 2]⟩, .removeAt ⟨2, []⟩ 5, .count ⟨2, []⟩]) =
    .ok ([.done, .done, .done, .done, .done, .done, .done, .done] ++ [.thrown, .thrown, .thrown, .done, .num 2]) := rfl

/-- The hypotheses of `copy_is_independent` and `added_is_found` are met. -/
example : gets (prog ++ [.look ⟨2, [.idx 1]⟩, .copy 4 (some true) ⟨2, [.idx 1]⟩]) =
    .ok ([.done, .done, .done, .done, .done, .done, .done, .done] ++ [.tree (.node true [(['a'], .val .num ['1'])]), .done]) := rfl

example : gets (prog ++ [.look ⟨2, []⟩, .has ⟨3, []⟩ ['x'], .add ⟨3, []⟩ ['x'] ⟨2, []⟩]) =
    .ok ([.done, .done, .done, .done, .done, .done, .done, .done] ++
      [.tree (.node false [([], .node true [(['a'], .val .num ['1'])]), ([], .node true [(['a'], .val .num ['1'])])]), .ans false, .done]) := rfl

/-- A name added twice, removed once. -/
example : gets (prog ++ [.add ⟨3, []⟩ ['x'] ⟨1, []⟩, .add ⟨3, []⟩ ['x'] ⟨0, []⟩, .remove ⟨3, []⟩ ['x'], .has ⟨3, []⟩ ['x']]) =
    .ok ([.done, .done, .done, .done, .done, .done, .done, .done] ++ [.done, .done, .done, .ans true]) := rfl

/-- With every variable destroyed there is no node, though fourteen were made. -/
example : ((M.init.run (prog ++ [.destroy 0, .destroy 1, .destroy 2, .destroy 3])).map fun r =>
    ((List.range 4).all fun v => (r.1.root v).isNone) && ((List.range r.1.h.next).all fun x => r.1.h.cell x = .gone) && r.1.h.next = 14) = .ok true := rfl

/-- A step that keeps all nodes, and a reference it keeps. -/
example : (Op.add ⟨2, [.idx 0]⟩ ['z'] ⟨3, []⟩).Keeps ∧
    ((M.init.run prog).map fun r => (r.1.root 2).map fun a => resolve r.1.h a [.idx 1, .name ['a']]) = .ok (some (.ok (some 6))) := ⟨trivial, rfl⟩

/-- Two variables that hold objects, the second with a child. -/
example : ((M.init.run prog).map fun r => ((r.1.root 3).map r.1.h.cell, (r.1.root 0).map r.1.h.cell)) =
    .ok (some (.node true [(['l'], 13)]), some (.node true [(['a'], 2)])) := rfl

/-- The assigned object shares its children. -/
example : gets (prog ++ [.mkNode 5 true, .assign 5 0, .set ⟨5, [.name ['a']]⟩ .num ['7'], .look ⟨0, [.name ['a']]⟩]) =
    .ok ([.done, .done, .done, .done, .done, .done, .done, .done] ++ [.done, .done, .done, .tree (.val .num ['7'])]) := rfl

example : M.init.run (prog ++ [.assign 3 0, .destroy 3, .destroy 0]) = .ub := rfl

end Lms.JsonTree
