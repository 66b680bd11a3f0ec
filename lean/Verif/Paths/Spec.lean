import Verif.Paths.Model

/-! What is said of paths. -/

namespace Lms.Paths

open FilterConn

/-- What writer `w` of filter `u` writes, filter `v` reads under `r`: both hold an end of one queue, which is
connected, and the reader knows of `v`. -/
def Joined (s : St) (u : Nat) (w : Int) (v : Nat) (r : Int) : Prop :=
  ∃ q o, ⟨u, w, q⟩ ∈ s.ws ∧ s.cell q = .live true u w ∧ ⟨v, r, some o⟩ ∈ s.rs ∧ (s.rdr o).queue = some q ∧ v ∈ (s.rdr o).filters

/-- There is a connection from writer `w` of `u` through the filters `l`, in order, to reader `r` of `dst`. -/
def Leads (s : St) (u : Nat) (w : Int) (l : List Nat) (dst : Nat) (r : Int) : Prop :=
  match l with
  | [] => Joined s u w dst r
  | m :: ms => (∃ r', Joined s u w m r') ∧ ∃ w', Leads s m w' ms dst r

/-- `v` comes right after `u`. -/
def Next (l : List Nat) (u v : Nat) : Prop := ∃ a b, l = a ++ u :: v :: b

/-- What `createPath` has seen (src/PipelineManager.cpp:254-268); a path without filters of its own does not lead to
where it comes from; no reader configuration is refused; ids of readers are not negative (275-277, src/Filter.cpp:141-155). -/
structure Fit (e : Env) (p : Path) : Prop where
  once : p.mid.Nodup
  org : p.org ∉ p.mid
  dst : p.dst ∉ p.mid
  ends : p.mid = [] → p.org ≠ p.dst
  cfg : ∀ a b, (e.hook a b).rcfg = true
  rid : ∀ m, 0 ≤ e.rid m
  dstR : 0 ≤ p.dstR

/-- Nothing is connected to the filter, and it takes a reader and a writer. -/
structure Bare (s : St) (m : Nat) : Prop where
  rs : ∀ e ∈ s.rs, e.f ≠ m
  ws : ∀ e ∈ s.ws, e.f ≠ m
  maxR : 0 < s.maxR m
  maxW : 0 < s.maxW m

/-- The filter can take a reader under this id. -/
structure Takes (s : St) (v : Nat) (r : Int) : Prop where
  none : findR s v r = none
  room : sizeR s v < s.maxR v

/-- Where a path can begin: at a free writer, or at a connected one that the next filter does not read yet. -/
def Begins (s : St) (u : Nat) (w : Int) (v : Nat) : Prop :=
  findW s u w = none ∧ sizeW s u < s.maxW u ∨ (∃ v' r, Joined s u w v' r) ∧ ∀ r, ¬ Joined s u w v r

/-- The filters that go with a path. -/
def Doomed (p : Path) (delDst delOrg : Bool) (f : Nat) : Prop := f ∈ p.mid ∨ delDst = true ∧ f = p.dst ∨ delOrg = true ∧ f = p.org

/-- All that happens to connections in the course of time: paths are connected and deleted, and filters find, in their
rounds, that the other end is gone. -/
inductive Hist (mr mw : Nat → Nat) : St → Prop
  | init : Hist mr mw (St.init mr mw)
  | connect {s t : St} {e : Env} {p : Path} {b : Bool} : Hist mr mw s → Fit e p → connectPath e s p = .ok (t, b) → Hist mr mw t
  | delete {s t : St} {d : Nat → Bool} {x y : Bool} {p : Path} {b : Bool} : Hist mr mw s → deletePath d x y s p = .ok (t, b) → Hist mr mw t
  | roundW {s t : St} {f : Nat} : Hist mr mw s → sweepW s f = .ok t → Hist mr mw t
  | roundR {s t : St} {f : Nat} {strict : Bool} : Hist mr mw s → sweepR s f strict = .ok t → Hist mr mw t

end Lms.Paths
