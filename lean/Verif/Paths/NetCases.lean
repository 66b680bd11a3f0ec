import Verif.Paths.Net
import Verif.Paths.Cases

/-! C95, C96: cases of networks. -/

namespace Lms.Paths

open FilterConn

/-- After the writer of filter 4 is gone, filter 3 finds so in its round; the first path is untouched. -/
example {t : St} (h : sweepR s2 3 true = .ok t) : Joined t 2 1 3 1 := (rounds_change_nothing hist2 (.inr ⟨true, h⟩) _ _ _ _).2 (joinedB_joined (by decide +kernel))

def ngood (o : Outcome (Net × Bool)) (b : Bool) : Bool := match o with | .ok (_, c) => c == b | _ => false

def nafter : Outcome (Net × Bool) → Net
  | .ok (t, _) => t
  | _ => Net.init none9 fun _ => 4

theorem ngood_ok {o : Outcome (Net × Bool)} {b : Bool} (h : ngood o b = true) : o = .ok (nafter o, b) := by
  cases o with
  | ub => cases h
  | hang => cases h
  | ok x =>
    obtain ⟨t, c⟩ := x
    simp only [ngood, beq_iff_eq] at h
    rw [h]
    rfl

def n1 : Net := nafter ((Net.init none9 fun _ => 4).step (.create env 10 first))
def n2 : Net := nafter (n1.step (.create env 20 second))
def n3 : Net := nafter (n2.step (.remove (fun _ => true) 10))
def n4 : Net := nafter (n3.step (.remove (fun _ => true) 20))

theorem nrun1 : (Net.init none9 fun _ => 4).step (.create env 10 first) = .ok (n1, true) := ngood_ok (by decide +kernel)
theorem nrun2 : n1.step (.create env 20 second) = .ok (n2, true) := ngood_ok (by decide +kernel)
theorem nrun3 : n2.step (.remove (fun _ => true) 10) = .ok (n3, true) := ngood_ok (by decide +kernel)
theorem nrun4 : n3.step (.remove (fun _ => true) 20) = .ok (n4, true) := ngood_ok (by decide +kernel)

theorem apart12 : Apart second first := ⟨by decide, by decide, by decide⟩

theorem paths1 : n1.paths = [(10, first, true)] := by decide +kernel

theorem runs1 : Runs none9 (fun _ => 4) n1 := .step (r := .create env 10 first) .init ⟨fit1, fun x hx => (by cases hx)⟩ nrun1
theorem polite2 : Polite n1 (.create env 20 second) := ⟨fit2, fun x hx => by
  rw [paths1, List.mem_singleton] at hx
  rw [hx]
  exact apart12⟩
theorem runs2 : Runs none9 (fun _ => 4) n2 := .step runs1 polite2 nrun2
theorem runs3 : Runs none9 (fun _ => 4) n3 := .step (r := .remove (fun _ => true) 10) runs2 (fun _ => rfl) nrun3
theorem runs4 : Runs none9 (fun _ => 4) n4 := .step (r := .remove (fun _ => true) 20) runs3 (fun _ => rfl) nrun4

example : ∃ n' b, n1.step (.create env 20 second) = .ok (n', b) := requests_are_safe runs1 polite2

/-- The second path still leads when the first, with which it shares the origin's writer, is gone. -/
example : Leads n3.conn 0 1 [4] 3 2 := connected_paths_stay runs3 (id := 20) (p := second) (by decide +kernel)
example : n3.conn.rs = [⟨4, 1, some 0⟩, ⟨3, 2, some 3⟩] ∧ n3.paths = [(20, second, true)] := by decide +kernel
example : ∃ id p b, (id, p, b) ∈ n3.paths ∧ Next (p.org :: p.mid ++ [p.dst]) 0 4 ∧ (4 = p.dst → (1 : Int) = p.dstR) :=
  no_stray_connections runs3 (joinedB_joined (by decide +kernel) : Joined n3.conn 0 1 4 1)
example : ¬ Joined n4.conn 0 1 4 1 := nothing_joined_without_paths runs4 (by decide +kernel) _ _ _ _
example : ∀ x, x ∈ n3.paths ↔ x ∈ n2.paths ∧ x.1 ≠ 10 := (removal_removes runs2 (fun _ => rfl) nrun3).2

/-- To the reader the first path ends in. -/
def rival : Path := ⟨5, 1, [6], 3, 1⟩

/-- **C96** (recorded). A path that could not be connected because its reader is taken stays in the registry; removing it takes
that reader away, and the path that was connected is cut. -/
theorem removing_failed_path_cuts_another : ∃ (n m k : Net) (e : Env) (d : Nat → Bool) (p q : Path) (i j : Int), Runs none9 (fun _ => 4) n ∧ Fit e q ∧
    n.step (.create e j q) = .ok (m, false) ∧ m.step (.remove d j) = .ok (k, true) ∧ (∀ f, d f = true) ∧
    (i, p, true) ∈ n.paths ∧ (i, p, true) ∈ k.paths ∧ Leads m.conn p.org p.orgW p.mid p.dst p.dstR ∧ ¬ Leads k.conn p.org p.orgW p.mid p.dst p.dstR := by
  have hf : Fit env rival := ⟨by decide, by decide, by decide, by decide, fun _ _ => rfl, fun _ => (by show (0 : Int) ≤ 1; decide), by decide⟩
  have h1 : n1.step (.create env 30 rival) = .ok (nafter (n1.step (.create env 30 rival)), false) := ngood_ok (by decide +kernel)
  have h2 : (nafter (n1.step (.create env 30 rival))).step (.remove (fun _ => true) 30) =
    .ok (nafter ((nafter (n1.step (.create env 30 rival))).step (.remove (fun _ => true) 30)), true) := ngood_ok (by decide +kernel)
  refine ⟨n1, _, _, env, fun _ => true, first, rival, 10, 30, runs1, hf, h1, h2, fun _ => rfl, by decide +kernel, by decide +kernel, ?_, ?_⟩
  · exact ⟨⟨1, joinedB_joined (by decide +kernel)⟩, 1, ⟨1, joinedB_joined (by decide +kernel)⟩, 1, joinedB_joined (by decide +kernel)⟩
  · rintro ⟨_, _, _, _, q, o, _, _, h, _⟩
    have : ∀ x ∈ (nafter ((nafter (n1.step (.create env 30 rival))).step (.remove (fun _ => true) 30))).conn.rs, ¬ (x.f = 3 ∧ x.id = 1) := by decide +kernel
    exact this _ h ⟨rfl, rfl⟩

end Lms.Paths
