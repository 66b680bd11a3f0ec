import Verif.Paths.Props

/-! C95: cases. -/

namespace Lms.Paths

open FilterConn

/-- Ids of filters that have one reader and one writer; all agree. -/
def env : Env := ⟨fun _ => 1, fun _ => 1, fun _ _ => yes⟩

/-- Filter 9 takes no reader. -/
def none9 : Nat → Nat := fun f => if f = 9 then 0 else 4

def start : St := St.init none9 (fun _ => 4)

def good (o : Outcome (St × Bool)) (b : Bool) : Bool := match o with | .ok (_, c) => c == b | _ => false

def after : Outcome (St × Bool) → St
  | .ok (t, _) => t
  | _ => start

theorem good_ok {o : Outcome (St × Bool)} {b : Bool} (h : good o b = true) : o = .ok (after o, b) := by
  cases o with
  | ub => cases h
  | hang => cases h
  | ok x =>
    obtain ⟨t, c⟩ := x
    simp only [good, beq_iff_eq] at h
    rw [h]
    rfl

/-- Is it joined? -/
def joinedB (s : St) (u : Nat) (w : Int) (v : Nat) (r : Int) : Bool :=
  s.ws.any fun e => e.f = u && e.id = w && decide (s.cell e.q = .live true u w) &&
    s.rs.any fun x => x.f = v && x.id = r && reads s e.q x && (match x.obj with | some o => decide (v ∈ (s.rdr o).filters) | none => false)

theorem joinedB_joined {s : St} {u v : Nat} {w r : Int} (h : joinedB s u w v r = true) : Joined s u w v r := by
  unfold joinedB at h
  obtain ⟨⟨f, i, q⟩, h1, h2⟩ := List.any_eq_true.1 h
  simp only [Bool.and_eq_true, decide_eq_true_eq] at h2
  obtain ⟨⟨⟨rfl, rfl⟩, h3⟩, h4⟩ := h2
  obtain ⟨⟨g, j, ob⟩, h5, h6⟩ := List.any_eq_true.1 h4
  simp only [Bool.and_eq_true, decide_eq_true_eq] at h6
  obtain ⟨⟨⟨rfl, rfl⟩, h7⟩, h8⟩ := h6
  cases ob with
  | none => cases h8
  | some o =>
    simp [reads] at h7
    simp at h8
    exact ⟨q, o, h1, h3, h5, h7, h8⟩

theorem joined_joinedB {s : St} {u v : Nat} {w r : Int} (h : Joined s u w v r) : joinedB s u w v r = true := by
  obtain ⟨q, o, h1, h2, h3, h4, h5⟩ := h
  unfold joinedB
  refine List.any_eq_true.2 ⟨_, h1, ?_⟩
  simp only [Bool.and_eq_true, decide_eq_true_eq]
  refine ⟨⟨by simp, h2⟩, List.any_eq_true.2 ⟨_, h3, ?_⟩⟩
  simp [reads, h4, h5]

/-- From writer 1 of filter 0 through 1 and 2 to reader 1 of filter 3. -/
def first : Path := ⟨0, 1, [1, 2], 3, 1⟩
/-- From the same writer through 4 to reader 2 of filter 3. -/
def second : Path := ⟨0, 1, [4], 3, 2⟩
/-- From a writer of filter 2, which is on the first path, to filter 5. -/
def third : Path := ⟨2, 2, [], 5, 1⟩
/-- Through a filter that takes no reader. -/
def fourth : Path := ⟨7, 1, [8, 9], 3, 3⟩

def s1 : St := after (connectPath env start first)
def s2 : St := after (connectPath env s1 second)
def s3 : St := after (connectPath env s2 third)

theorem fit1 : Fit env first := ⟨by decide, by decide, by decide, by decide, fun _ _ => rfl, fun _ => (by show (0 : Int) ≤ 1; decide), by decide⟩
theorem fit2 : Fit env second := ⟨by decide, by decide, by decide, by decide, fun _ _ => rfl, fun _ => (by show (0 : Int) ≤ 1; decide), by decide⟩
theorem fit3 : Fit env third := ⟨by decide, by decide, by decide, by decide, fun _ _ => rfl, fun _ => (by show (0 : Int) ≤ 1; decide), by decide⟩
theorem fit4 : Fit env fourth := ⟨by decide, by decide, by decide, by decide, fun _ _ => rfl, fun _ => (by show (0 : Int) ≤ 1; decide), by decide⟩

theorem run1 : connectPath env start first = .ok (s1, true) := good_ok (by decide +kernel)
theorem run2 : connectPath env s1 second = .ok (s2, true) := good_ok (by decide +kernel)
theorem run3 : connectPath env s2 third = .ok (s3, true) := good_ok (by decide +kernel)

theorem hist1 : Hist none9 (fun _ => 4) s1 := .connect .init fit1 run1
theorem hist2 : Hist none9 (fun _ => 4) s2 := .connect hist1 fit2 run2
theorem hist3 : Hist none9 (fun _ => 4) s3 := .connect hist2 fit3 run3

/-- The second path shares the reader of the first: filters 1 and 4 read the same queue. -/
example : s2.rs = [⟨1, 1, some 0⟩, ⟨2, 1, some 1⟩, ⟨3, 1, some 2⟩, ⟨4, 1, some 0⟩, ⟨3, 2, some 3⟩] ∧
    s2.ws = [⟨0, 1, 0⟩, ⟨1, 1, 1⟩, ⟨2, 1, 2⟩, ⟨4, 1, 3⟩] ∧ (s2.rdr 0).filters = [1, 4] := by decide +kernel

example : Leads s2 0 1 [4] 3 2 := connected_path_leads hist1 fit2 run2
example : Joined s2 0 1 1 1 := (connecting_changes_only_the_path hist1 fit2 run2).1 _ _ _ _ (joinedB_joined (by decide +kernel))
example : Reg s3 := (no_reader_given_twice hist3).2.2
example : ∃ t b, connectPath env s3 fourth = .ok (t, b) := (path_calls_are_safe hist3).1 _ _ fit4

/-- The second path can be connected: it begins at a connected writer. -/
example : ∃ t, connectPath env s1 second = .ok (t, true) := by
  refine free_path_is_connected hist1 fit2 (fun _ _ => rfl) (fun m hm => ?_) ⟨by decide +kernel, by decide +kernel⟩ (.inr ⟨⟨1, 1, joinedB_joined (by decide +kernel)⟩, fun r hj => ?_⟩)
  · simp only [second, List.mem_singleton] at hm
    subst hm
    exact ⟨by decide +kernel, by decide +kernel, by decide +kernel, by decide +kernel⟩
  · obtain ⟨q, o, _, _, h3, _⟩ := hj
    have : ∀ e ∈ s1.rs, e.f ≠ 4 := by decide +kernel
    exact this _ h3 rfl

def s4 : St := after (deletePath (fun _ => true) false false s2 first)
theorem del1 : deletePath (fun _ => true) false false s2 first = .ok (s4, true) := good_ok (by decide +kernel)

/-- The first path goes; the second goes on, on its own. -/
example : s4.rs = [⟨4, 1, some 0⟩, ⟨3, 2, some 3⟩] ∧ s4.ws = [⟨0, 1, 0⟩, ⟨4, 1, 3⟩] ∧ (s4.rdr 0).filters = [4] := by decide +kernel
example : Joined s4 0 1 4 1 :=
  ((deleted_path_is_gone hist2 del1).2.2 0 1 4 1).2 ⟨joinedB_joined (by decide +kernel), by simp [Doomed, first], by simp [Doomed, first], by simp [first]⟩

def s5 : St := after (deletePath (fun _ => false) false false s2 first)
theorem del2 : deletePath (fun _ => false) false false s2 first = .ok (s5, false) := good_ok (by decide +kernel)
example : ¬ Joined s5 2 1 3 1 ∧ Joined s5 0 1 1 1 := by
  have h := (refused_deletion_cuts_the_end hist2 del2).2.2.2
  refine ⟨fun hj => ((h _ _ _ _).1 hj).2 ⟨rfl, rfl⟩, (h _ _ _ _).2 ⟨joinedB_joined (by decide +kernel), by simp [first]⟩⟩

def s6 : St := after (deletePath (fun _ => true) false false s2 second)
theorem del3 : deletePath (fun _ => true) false false s2 second = .ok (s6, true) := good_ok (by decide +kernel)
example : Joined s6 1 1 2 1 ↔ Joined s1 1 1 2 1 :=
  path_comes_and_goes hist1 fit2 (fun m hm => by
    simp only [second, List.mem_singleton] at hm
    subst hm
    exact ⟨by decide +kernel, by decide +kernel, by decide +kernel, by decide +kernel⟩) run2 del3 (by simp [second])
example : Joined s1 1 1 2 1 := joinedB_joined (by decide +kernel)

/-- **C95** (recorded). A path that cannot be connected to its end stays connected as far as it got. -/
theorem failed_path_stays_half_connected : ∃ (mr mw : Nat → Nat) (s t : St) (e : Env) (p : Path), Hist mr mw s ∧ Fit e p ∧ connectPath e s p = .ok (t, false) ∧
    ∃ u w v r, Joined t u w v r ∧ ¬ Joined s u w v r := by
  refine ⟨none9, fun _ => 4, s3, after (connectPath env s3 fourth), env, fourth, hist3, fit4, good_ok (by decide +kernel), 7, 1, 8, 1, joinedB_joined (by decide +kernel), fun h => ?_⟩
  have := joined_joinedB h
  revert this
  decide +kernel

/-- **C95** (recorded). Connecting a path without filters of its own to where it comes from never returns: `createPath` lets it pass. -/
theorem path_to_itself_hangs (e : Env) (s : St) {p : Path} (h1 : p.mid = []) (h2 : p.org = p.dst) : connectPath e s p = .hang := by
  obtain ⟨org, orgW, mid, dst, dstR⟩ := p
  simp only at h1 h2
  subst h1 h2
  unfold connectPath head connect
  simp only
  rw [if_pos trivial]
  rfl

example : connectPath env s3 ⟨3, 1, [], 3, 4⟩ = .hang := path_to_itself_hangs _ _ rfl rfl

/-- **C95** (recorded). Deleting a path takes its filters away though another path begins at one of them: that path is cut. -/
theorem deleting_cuts_another_path : ∃ (mr mw : Nat → Nat) (s t : St) (p p' : Path), Hist mr mw s ∧ Leads s p'.org p'.orgW p'.mid p'.dst p'.dstR ∧ p ≠ p' ∧
    deletePath (fun _ => true) false false s p = .ok (t, true) ∧ ¬ Leads t p'.org p'.orgW p'.mid p'.dst p'.dstR := by
  have hd : deletePath (fun _ => true) false false s3 first = .ok (after (deletePath (fun _ => true) false false s3 first), true) := good_ok (by decide +kernel)
  refine ⟨none9, fun _ => 4, s3, _, first, third, hist3, connected_path_leads hist2 fit3 run3, by decide, hd, fun hl => ?_⟩
  exact (deleted_filter_is_cut_from_others hist3 hd (m := 2) (by decide) _ _ _ _ hl).1 rfl

end Lms.Paths
