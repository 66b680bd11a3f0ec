import Verif.Pipeline.Model

/-!
# What a user of the pipeline manager relies on

Stated over the registries only: which filters and paths exist, and who uses whom.
-/

namespace Lms.Pipeline

/-- The filter id is registered. -/
def Reg (s : S) (f : Int) : Prop := ∃ o, (f, o) ∈ s.filters

/-- The path has the filter, as an end or in between. -/
def Uses (p : Path) (f : Int) : Prop := f = p.org ∨ f = p.dst ∨ f ∈ p.mids

/-- Some path has the filter. -/
def InUse (s : S) (f : Int) : Prop := ∃ e ∈ s.paths, Uses e.2 f

/-- Some path other than `id` has the filter. -/
def InUseByOther (s : S) (id f : Int) : Prop := ∃ e ∈ s.paths, e.1 ≠ id ∧ Uses e.2 f

/-- Every registered path is made of registered filters. -/
def Consistent (s : S) : Prop := ∀ e ∈ s.paths, ∀ f, Uses e.2 f → Reg s f

/-- Ids name at most one filter and at most one path; the tasks of the pool are exactly the registered
filters; every filter object made so far is either registered (once) or deleted (once); the intermediate
filters of a path are pairwise distinct and distinct from its ends. -/
structure WF (s : S) : Prop where
  filterIds : (s.filters.map (·.1)).Nodup
  pathIds : (s.paths.map (·.1)).Nodup
  tasks : ∀ rs, s.pool = some rs → rs = s.filters
  stopped : s.pool = none → s.filters = [] ∧ s.paths = []
  objects : (s.filters.map (·.2) ++ s.deleted).Nodup
  allObjects : ∀ o, o < s.next ↔ (o ∈ s.filters.map (·.2) ∨ o ∈ s.deleted)
  nonneg : ∀ e ∈ s.filters, 0 ≤ e.1
  alive : s.freedPaths = []
  shape : ∀ e ∈ s.paths, e.2.mids.Nodup ∧ e.2.org ∉ e.2.mids ∧ e.2.dst ∉ e.2.mids

/-- A request that takes nothing away from another path: removing a path whose intermediate filters no
other path has, or stopping with at most one path. -/
def Polite (s : S) : Op → Prop
  | .removePath id _ => ∀ p, (id, p) ∈ s.paths → ∀ m ∈ p.mids, ¬ InUseByOther s id m
  | .stop _ => s.paths.length ≤ 1
  | _ => True

/-- Stopping only with at most one path, and connecting only paths whose ends exist. -/
def Careful (s : S) : Op → Prop
  | .stop _ => s.paths.length ≤ 1
  | .connectPath id _ => ∀ p, (id, p) ∈ s.paths → Reg s p.org ∧ Reg s p.dst
  | _ => True

/-- A property of every request in the state it meets. -/
def Along (P : S → Op → Prop) : S → List Op → Prop
  | _, [] => True
  | s, op :: ops => P s op ∧ ∀ s' r, step s op = .ok (s', r) → Along P s' ops

end Lms.Pipeline
