import Verif.Pipeline.Lemmas

/-!
# C13 and C14: the pipeline graph under every request sequence, and stopping

Histories are arbitrary lists of requests on a new manager, with every result of the connections and
every generated id.
-/

namespace Lms.Pipeline

/-- One careful request on a well-formed manager. -/
theorem step_wf {s : S} (h : WF s) (op : Op) (hc : Careful s op) :
    ∃ s' r, step s op = .ok (s', r) ∧ WF s' := by
  cases op with
  | createFilter id k => exact ⟨_, _, rfl, createFilter_wf h id k⟩
  | createPath id org dst w r mids gw gr => exact ⟨_, _, rfl, createPath_wf h ..⟩
  | connectPath id res =>
    obtain ⟨b, e⟩ := connectPath_eq h id res hc
    exact ⟨s, b, e, h⟩
  | removePath id disc =>
    by_cases hp : ∃ p, (id, p) ∈ s.paths
    · obtain ⟨p, hp⟩ := hp
      by_cases hr : disc = true ∧ ∀ f, Uses p f → Reg s f
      · obtain ⟨s', e, hw, _⟩ := removePath_ok h hp hr.2
        exact ⟨s', true, by simp only [step, hr.1, e], hw⟩
      · exact ⟨s, false, by simp only [step]; exact removePath_refused h hp hr, h⟩
    · exact ⟨s, true, by simp only [step]; exact removePath_unknown (fun p hm => hp ⟨p, hm⟩), h⟩
  | removeFilter id =>
    by_cases hr : Reg s id ∧ ¬ InUse s id
    · obtain ⟨s', e, hw, _⟩ := removeFilter_ok h hr.1 hr.2
      exact ⟨s', true, e, hw⟩
    · refine ⟨s, false, removeFilter_refused h ?_, h⟩
      by_cases hx : Reg s id
      · right
        by_cases hu : InUse s id
        · exact hu
        · exact absurd ⟨hx, hu⟩ hr
      · exact Or.inl hx
  | stop disc =>
    simp only [step]
    by_cases hq : s.pool = none
    · exact ⟨s, false, stop_none disc _ hq, h⟩
    · cases hpa : s.paths with
      | nil =>
        obtain ⟨del, e, hn, hd⟩ := stop_empty h disc hq
        exact ⟨_, _, e, stopped_wf (s := { s with workers := false }) hn hd⟩
      | cons e es =>
        have : es = [] := by
          have hlen : s.paths.length ≤ 1 := hc
          rw [hpa] at hlen
          cases es with
          | nil => rfl
          | cons _ _ => simp at hlen
        subst this
        rw [← hpa]
        by_cases hr : disc e.1 = true ∧ ∀ f, Uses e.2 f → Reg s f
        · obtain ⟨s', e', hw, _⟩ := stop_single h e.1 e.2 disc hpa hr.2 hr.1
          exact ⟨s', true, e', hw⟩
        · refine ⟨_, false, stop_refused h e.1 e.2 disc hpa hr, ?_⟩
          exact ⟨h.1, h.2, h.3, h.4, h.5, h.6, h.7, h.8, h.9⟩

/-- **C13 (registries).**  Whatever requests are made (stopping only with at most one path and
connecting only paths whose ends exist), nothing undefined happens, ids name at most one filter and one
path, the pool's tasks are exactly the registered filters, every filter object made is registered once
or deleted once, and the intermediate filters of a path are distinct. -/
theorem registries_stay_wellformed (ops : List Op) (h : Along Careful S.init ops) :
    ∃ s outs, runOps step S.init ops = .ok (s, outs) ∧ WF s := by
  have main : ∀ (ops : List Op) (s : S), WF s → Along Careful s ops →
      ∃ s' outs, runOps step s ops = .ok (s', outs) ∧ WF s' := by
    intro ops
    induction ops with
    | nil => intro s hw _; exact ⟨s, [], rfl, hw⟩
    | cons op ops ih =>
      intro s hw hal
      obtain ⟨s1, r1, e1, hw1⟩ := step_wf hw op hal.1
      obtain ⟨s2, o2, e2, hw2⟩ := ih s1 hw1 (hal.2 s1 r1 e1)
      exact ⟨s2, r1 :: o2, by simp [runOps, e1, e2], hw2⟩
  exact main ops S.init init_wf h

/-- **C13 (removing a path).**  Removing a path of a consistent pipeline leaves it consistent exactly
when no other path has one of its intermediate filters. -/
theorem remove_path_keeps_consistency_iff {s : S} (h : WF s) (hc : Consistent s) {id : Int} {p : Path}
    (hp : (id, p) ∈ s.paths) :
    ∃ s', removePath s id true = .ok (s', true) ∧ s'.paths = erase s.paths id ∧
      (∀ f, Reg s' f ↔ Reg s f ∧ ¬ (f ∈ p.mids ∨ ((f = p.org ∨ f = p.dst) ∧ ¬ InUseByOther s id f))) ∧
      (Consistent s' ↔ ∀ m ∈ p.mids, ¬ InUseByOther s id m) := by
  obtain ⟨s', e, _, hpa, _, hreg⟩ := removePath_ok h hp (hc _ hp)
  refine ⟨s', e, hpa, hreg, ?_⟩
  constructor
  · rintro hcs m hm ⟨e', he', hne, hu⟩
    have := hcs e' (by rw [hpa, mem_erase]; exact ⟨he', hne⟩) m hu
    exact ((hreg m).1 this).2 (Or.inl hm)
  · intro hno e' he' f hu
    rw [hpa, mem_erase] at he'
    rw [hreg]
    refine ⟨hc e' he'.1 f hu, ?_⟩
    have hused : InUseByOther s id f := ⟨e', he'.1, he'.2, hu⟩
    rintro (hm | ⟨_, hm⟩)
    · exact hno f hm hused
    · exact hm hused

theorem reg_createFilter {s : S} (h : WF s) (id : Int) (k : Bool) {f : Int} (hf : Reg s f) :
    Reg (createFilter s id k).1 f := by
  rw [createFilter_eq h]
  split
  · exact hf
  · obtain ⟨o, ho⟩ := hf; exact ⟨o, List.mem_append_left _ ho⟩

theorem paths_createFilter {s : S} (h : WF s) (id : Int) (k : Bool) :
    (createFilter s id k).1.paths = s.paths := by
  rw [createFilter_eq h]; split <;> rfl

/-- One polite request on a consistent manager. -/
theorem step_consistent {s : S} (h : WF s) (hc : Consistent s) (op : Op) (hpo : Polite s op) :
    ∃ s' r, step s op = .ok (s', r) ∧ WF s' ∧ Consistent s' := by
  have hcareful : Careful s op := by
    cases op with
    | connectPath id res =>
      intro p hp; exact ⟨hc _ hp _ (by simp [Uses]), hc _ hp _ (by simp [Uses])⟩
    | stop d => exact hpo
    | createFilter => trivial
    | createPath => trivial
    | removePath => trivial
    | removeFilter => trivial
  obtain ⟨s', r, e, hw⟩ := step_wf h op hcareful
  refine ⟨s', r, e, hw, ?_⟩
  cases op with
  | createFilter id k =>
    simp only [step, Outcome.ok.injEq] at e
    have e1 : s' = (createFilter s id k).1 := by rw [e]
    rw [e1]
    intro x hx f hu
    rw [paths_createFilter h] at hx
    exact reg_createFilter h id k (hc x hx f hu)
  | createPath id org dst w r' mids gw gr =>
    simp only [step, Outcome.ok.injEq] at e
    have e1 : s' = (createPath s id org dst w r' mids gw gr).1 := by rw [e]
    rw [e1, createPath_eq]
    split
    · rename_i hcond
      obtain ⟨_, b, c, d, _⟩ := hcond
      intro x hx f hu
      have hgoal : Reg s f := by
        rcases List.mem_append.1 hx with hx | hx
        · exact hc x hx f hu
        · simp only [List.mem_singleton] at hx; subst hx
          rcases hu with rfl | rfl | hu
          · exact b
          · exact c
          · exact (d f hu).1
      exact hgoal
    · exact hc
  | connectPath id res =>
    obtain ⟨b, e'⟩ := connectPath_eq h id res hcareful
    simp only [step] at e
    rw [e] at e'
    simp only [Outcome.ok.injEq, Prod.mk.injEq] at e'
    rw [e'.1]; exact hc
  | removePath id disc =>
    simp only [step] at e
    by_cases hp : ∃ p, (id, p) ∈ s.paths
    · obtain ⟨p, hp⟩ := hp
      by_cases hd : disc = true
      · subst hd
        obtain ⟨s1, e1, _, _, hiff⟩ := remove_path_keeps_consistency_iff h hc hp
        rw [e1] at e; simp only [Outcome.ok.injEq, Prod.mk.injEq] at e
        rw [← e.1]; exact hiff.2 (hpo p hp)
      · rw [removePath_refused h hp (fun x => hd x.1)] at e
        simp only [Outcome.ok.injEq, Prod.mk.injEq] at e
        rw [← e.1]; exact hc
    · rw [removePath_unknown (fun p hm => hp ⟨p, hm⟩)] at e
      simp only [Outcome.ok.injEq, Prod.mk.injEq] at e
      rw [← e.1]; exact hc
  | removeFilter id =>
    simp only [step] at e
    by_cases hr : Reg s id ∧ ¬ InUse s id
    · obtain ⟨s1, e1, _, hpa, _, hreg⟩ := removeFilter_ok h hr.1 hr.2
      rw [e1] at e; simp only [Outcome.ok.injEq, Prod.mk.injEq] at e
      rw [← e.1]
      intro x hx f hu
      rw [hpa] at hx
      rw [hreg]
      refine ⟨hc x hx f hu, ?_⟩
      rintro rfl
      exact hr.2 ⟨x, hx, hu⟩
    · have : ¬ Reg s id ∨ InUse s id := by
        by_cases hx : Reg s id
        · right
          by_cases hu : InUse s id
          · exact hu
          · exact absurd ⟨hx, hu⟩ hr
        · exact Or.inl hx
      rw [removeFilter_refused h this] at e
      simp only [Outcome.ok.injEq, Prod.mk.injEq] at e
      rw [← e.1]; exact hc
  | stop disc =>
    simp only [step] at e
    by_cases hq : s.pool = none
    · rw [stop_none disc _ hq] at e
      simp only [Outcome.ok.injEq, Prod.mk.injEq] at e
      rw [← e.1]; exact hc
    · cases hpa : s.paths with
      | nil =>
        rw [hpa] at e
        obtain ⟨del, e', _⟩ := stop_empty h disc hq
        rw [e'] at e
        simp only [Outcome.ok.injEq, Prod.mk.injEq] at e
        rw [← e.1]; intro x hx; simp at hx
      | cons e0 es =>
        have : es = [] := by
          have hlen : s.paths.length ≤ 1 := hpo
          rw [hpa] at hlen
          cases es with
          | nil => rfl
          | cons _ _ => simp at hlen
        subst this
        by_cases hr : disc e0.1 = true ∧ ∀ f, Uses e0.2 f → Reg s f
        · obtain ⟨s1, e', _, _, hp1, _⟩ := stop_single h e0.1 e0.2 disc hpa hr.2 hr.1
          rw [e'] at e; simp only [Outcome.ok.injEq, Prod.mk.injEq] at e
          rw [← e.1]; intro x hx; rw [hp1] at hx; simp at hx
        · rw [stop_refused h e0.1 e0.2 disc hpa hr] at e
          simp only [Outcome.ok.injEq, Prod.mk.injEq] at e
          rw [← e.1]; exact hc

/-- **C13 (graph).**  As long as no path is removed whose intermediate filters another path has, every
registered path is made of registered filters after every request history, and nothing undefined
happens. -/
theorem graph_stays_consistent (ops : List Op) (h : Along Polite S.init ops) :
    ∃ s outs, runOps step S.init ops = .ok (s, outs) ∧ WF s ∧ Consistent s := by
  have main : ∀ (ops : List Op) (s : S), WF s → Consistent s → Along Polite s ops →
      ∃ s' outs, runOps step s ops = .ok (s', outs) ∧ WF s' ∧ Consistent s' := by
    intro ops
    induction ops with
    | nil => intro s hw hc _; exact ⟨s, [], rfl, hw, hc⟩
    | cons op ops ih =>
      intro s hw hc hal
      obtain ⟨s1, r1, e1, hw1, hc1⟩ := step_consistent hw hc op hal.1
      obtain ⟨s2, o2, e2, hw2⟩ := ih s1 hw1 hc1 (hal.2 s1 r1 e1)
      exact ⟨s2, r1 :: o2, by simp [runOps, e1, e2], hw2⟩
  exact main ops S.init init_wf (by intro e he; simp [S.init] at he) h

/-- **C13 (which requests are accepted).**  In every well-formed state: a filter is created iff its id
is unused, not negative and its type known; a path iff its id is unused, its ends are registered and its
intermediate filters registered, pairwise distinct and distinct from the ends; a filter is removed iff
it is registered and no path has it; a registered path is removed iff all its filters are registered
(and its destination can be disconnected); removing an unknown path does nothing. -/
theorem accepted_requests {s : S} (h : WF s) :
    (∀ id k, (createFilter s id k).2 = true ↔ (0 ≤ id ∧ ¬ Reg s id ∧ k = true)) ∧
    (∀ id org dst w r mids gw gr, (createPath s id org dst w r mids gw gr).2 = true ↔
      ((∀ p, (id, p) ∉ s.paths) ∧ Reg s org ∧ Reg s dst ∧
        (∀ m ∈ mids, Reg s m ∧ m ≠ org ∧ m ≠ dst) ∧ mids.Nodup)) ∧
    (∀ id, (∃ s', removeFilter s id = .ok (s', true)) ↔ (Reg s id ∧ ¬ InUse s id)) ∧
    (∀ id p disc, (id, p) ∈ s.paths →
      ((∃ s', removePath s id disc = .ok (s', true)) ↔ (disc = true ∧ ∀ f, Uses p f → Reg s f))) ∧
    (∀ id disc, (∀ p, (id, p) ∉ s.paths) → removePath s id disc = .ok (s, true)) := by
  refine ⟨?_, ?_, ?_, ?_, ?_⟩
  · intro id k
    rw [createFilter_eq h]
    have hr : (lookup s.filters id).isSome = true ↔ Reg s id := lookup_isSome
    split
    · rename_i hc
      simp only [Bool.false_eq_true, false_iff]
      rintro ⟨a, b, c⟩
      rcases hc with hc | hc | hc
      · exact b (hr.1 hc)
      · omega
      · rw [c] at hc; cases hc
    · rename_i hc
      simp only [not_or] at hc
      simp only [true_iff]
      exact ⟨by omega, fun x => hc.1 (hr.2 x), by simpa using hc.2.2⟩
  · intro id org dst w r mids gw gr
    rw [createPath_eq]
    split
    · rename_i hc; simp only [true_iff]; exact hc
    · rename_i hc; simp only [Bool.false_eq_true, false_iff]; exact hc
  · intro id
    constructor
    · rintro ⟨s', e⟩
      by_cases hr : Reg s id ∧ ¬ InUse s id
      · exact hr
      · have : ¬ Reg s id ∨ InUse s id := by
          by_cases hx : Reg s id
          · right
            by_cases hu : InUse s id
            · exact hu
            · exact absurd ⟨hx, hu⟩ hr
          · exact Or.inl hx
        rw [removeFilter_refused h this] at e; simp at e
    · rintro ⟨a, b⟩
      obtain ⟨s', e, _⟩ := removeFilter_ok h a b
      exact ⟨s', e⟩
  · intro id p disc hp
    constructor
    · rintro ⟨s', e⟩
      by_cases hr : disc = true ∧ ∀ f, Uses p f → Reg s f
      · exact hr
      · rw [removePath_refused h hp hr] at e; simp at e
    · rintro ⟨rfl, b⟩
      obtain ⟨s', e, _⟩ := removePath_ok h hp b
      exact ⟨s', e⟩
  · intro id disc hp; exact removePath_unknown hp

/-- **C13 (refusals).**  A refused request, other than a stop, changes nothing. -/
theorem refused_request_changes_nothing {s s' : S} (h : WF s) (op : Op) (hc : Careful s op)
    (hstop : ∀ d, op ≠ .stop d) (e : step s op = .ok (s', false)) : s' = s := by
  cases op with
  | createFilter id k =>
    simp only [step, Outcome.ok.injEq] at e
    rw [createFilter_eq h] at e
    split at e
    · simp only [Prod.mk.injEq] at e; exact e.1.symm
    · simp at e
  | createPath id org dst w r mids gw gr =>
    simp only [step, Outcome.ok.injEq] at e
    rw [createPath_eq] at e
    split at e
    · simp at e
    · simp only [Prod.mk.injEq] at e; exact e.1.symm
  | connectPath id res =>
    obtain ⟨b, e'⟩ := connectPath_eq h id res hc
    simp only [step] at e
    rw [e] at e'; simp only [Outcome.ok.injEq, Prod.mk.injEq] at e'; exact e'.1
  | removePath id disc =>
    simp only [step] at e
    by_cases hp : ∃ p, (id, p) ∈ s.paths
    · obtain ⟨p, hp⟩ := hp
      by_cases hr : disc = true ∧ ∀ f, Uses p f → Reg s f
      · obtain ⟨s1, e1, _⟩ := removePath_ok h hp hr.2
        rw [hr.1, e1] at e; simp at e
      · rw [removePath_refused h hp hr] at e
        simp only [Outcome.ok.injEq, Prod.mk.injEq] at e; exact e.1.symm
    · rw [removePath_unknown (fun p hm => hp ⟨p, hm⟩)] at e; simp at e
  | removeFilter id =>
    simp only [step] at e
    by_cases hr : ¬ Reg s id ∨ InUse s id
    · rw [removeFilter_refused h hr] at e
      simp only [Outcome.ok.injEq, Prod.mk.injEq] at e; exact e.1.symm
    · simp only [not_or, Classical.not_not] at hr
      obtain ⟨s1, e1, _⟩ := removeFilter_ok h hr.1 hr.2
      rw [e1] at e; simp at e
  | stop d => exact absurd rfl (hstop d)

/-- The history used for the counterexamples: two paths with the same intermediate filter 3. -/
def sharedMid : List Op :=
  [.createFilter 1 true, .createFilter 2 true, .createFilter 3 true, .createFilter 4 true,
   .createPath 10 1 2 (-1) (-1) [3] 1 1, .createPath 11 4 2 (-1) (-1) [3] 1 5, .removePath 10 true]

/-- **C13 (recorded exception).**  Removing a path deletes its intermediate filters even if another path
has them: the other path is left with an unregistered filter and can no longer be removed. -/
theorem removing_path_breaks_sharing_path :
    ∃ s outs, runOps step S.init sharedMid = .ok (s, outs) ∧ ¬ Consistent s ∧
      removePath s 11 true = .ok (s, false) := by
  refine ⟨{ filters := [(2, 1), (4, 3)]
            paths := [(11, { org := 4, dst := 2, orgW := 1, dstR := 5, mids := [3] })], freedPaths := []
            pool := some [(2, 1), (4, 3)], workers := true, next := 4, deleted := [0, 2] }, _, rfl, ?_, by decide⟩
  intro h
  obtain ⟨o, ho⟩ := h _ (List.mem_singleton.2 rfl) 3 (by simp [Uses])
  simp at ho

/-- **C13 (recorded exception).**  Connecting (again) a path whose destination has been deleted with
another path's intermediate filters dereferences a null pointer. -/
theorem connecting_dangling_path_is_ub :
    runOps step S.init
      [.createFilter 1 true, .createFilter 2 true, .createFilter 3 true,
       .createPath 10 1 2 (-1) (-1) [3] 1 1, .createPath 11 1 3 (-1) (-1) [] 1 5, .removePath 10 true,
       .connectPath 11 true] = .ub := by
  decide

/-- **C14.**  With no path, or with one path whose filters exist, stopping a manager whose pool exists
succeeds, and leaves no filter, no path and no pool; every filter object ever made has been deleted
exactly once. -/
theorem stop_releases_everything (ops : List Op) (hal : Along Careful S.init ops) {s : S} {outs : List Bool}
    (e : runOps step S.init ops = .ok (s, outs)) (hpool : s.pool ≠ none) (hlen : s.paths.length ≤ 1)
    (hc : Consistent s) (disc : Int → Bool) (hd : ∀ x ∈ s.paths, disc x.1 = true) :
    ∃ s', stop s s.paths disc = .ok (s', true) ∧ s'.filters = [] ∧ s'.paths = [] ∧ s'.pool = none ∧
      s'.deleted.Nodup ∧ (∀ o, o ∈ s'.deleted ↔ o < s.next) := by
  obtain ⟨s0, o0, e0, hw⟩ := registries_stay_wellformed ops hal
  rw [e] at e0; simp only [Outcome.ok.injEq, Prod.mk.injEq] at e0
  rw [← e0.1] at hw
  cases hpa : s.paths with
  | nil =>
    obtain ⟨del, e', hn, hd'⟩ := stop_empty hw disc hpool
    exact ⟨_, e', rfl, rfl, rfl, hn, fun o => (hd' o).symm⟩
  | cons x xs =>
    have : xs = [] := by
      rw [hpa] at hlen
      cases xs with
      | nil => rfl
      | cons _ _ => simp at hlen
    subst this
    obtain ⟨s', e', hw', hf, hp, hq, hn⟩ := stop_single hw x.1 x.2 disc hpa
      (hc x (by rw [hpa]; simp)) (hd x (by rw [hpa]; simp))
    rw [hpa] at e'
    refine ⟨s', e', hf, hp, hq, ?_, ?_⟩
    · have := hw'.objects; rw [hf] at this; simpa using this
    · intro o
      have := hw'.allObjects o
      rw [hf, hn] at this; simpa using this.symm

/-- **C14 (already stopped).**  Without a pool, a stop is refused and changes nothing; and then there is
nothing left to stop. -/
theorem second_stop_refused {s : S} (h : WF s) (hp : s.pool = none) (disc : Int → Bool) :
    stop s s.paths disc = .ok (s, false) ∧ s.filters = [] ∧ s.paths = [] :=
  ⟨stop_none disc _ hp, h.stopped hp⟩

theorem deletePath_true_freed {s s' : S} {id : Int} {disc : Bool}
    (e : deletePath s id disc = .ok (s', true)) : id ∈ s'.freedPaths := by
  unfold deletePath at e
  split at e
  · simp at e
  · split at e
    · simp at e
    · split at e
      · simp at e
      · split at e
        · simp at e
        · split at e
          · simp at e
          · revert e
            cases dropMids s _ with
            | ub => simp
            | hang => simp
            | ok s1 =>
              simp only [Outcome.bind_ok]
              split
              · simp
              · intro e
                revert e
                generalize (if usedByOthers s1 id _ = true then Outcome.ok s1 else dropFilter s1 _) = x
                cases x with
                | ub => simp
                | hang => simp
                | ok s2 =>
                  simp only [Outcome.bind_ok]
                  generalize (if usedByOthers s2 id _ = true then Outcome.ok s2 else dropFilter s2 _) = y
                  cases y with
                  | ub => simp
                  | hang => simp
                  | ok s3 =>
                    simp only [Outcome.bind_ok, Outcome.ok.injEq, Prod.mk.injEq, and_true]
                    rintro rfl
                    simp

theorem dropFilter_paths {s s' : S} {id : Int} (e : dropFilter s id = .ok s') :
    s'.paths = s.paths ∧ s'.freedPaths = s.freedPaths := by
  unfold dropFilter removeTask at e
  cases hp : s.pool with
  | none => simp [hp] at e
  | some rs =>
    simp only [hp, Outcome.bind_ok] at e
    split at e
    · simp at e; rw [← e]; exact ⟨rfl, rfl⟩
    · split at e
      · simp at e
      · simp at e; rw [← e]; exact ⟨rfl, rfl⟩

theorem dropMids_paths {ms : List Int} : ∀ {s s' : S}, dropMids s ms = .ok s' →
    s'.paths = s.paths ∧ s'.freedPaths = s.freedPaths := by
  induction ms with
  | nil => intro s s' e; simp [dropMids] at e; rw [e]; exact ⟨rfl, rfl⟩
  | cons m ms ih =>
    intro s s' e
    simp only [dropMids] at e
    split at e
    · simp at e
    · cases h1 : dropFilter s m with
      | ub => simp [h1] at e
      | hang => simp [h1] at e
      | ok s1 =>
        rw [h1] at e; simp only [Outcome.bind_ok] at e
        have a := dropFilter_paths h1
        have b := ih e
        exact ⟨b.1.trans a.1, b.2.trans a.2⟩

/-- A successful `deletePath` has read every other path: none of them was deleted before. -/
theorem deletePath_true_alive {s s' : S} {id : Int} {disc : Bool}
    (e : deletePath s id disc = .ok (s', true)) :
    s'.paths = s.paths ∧ ∀ x ∈ s.paths, x.1 ≠ id → x.1 ∉ s.freedPaths := by
  unfold deletePath at e
  split at e
  · simp at e
  · split at e
    · simp at e
    · split at e
      · simp at e
      · split at e
        · simp at e
        · split at e
          · simp at e
          · rename_i p _ _ _ _ _
            cases h1 : dropMids s p.mids.reverse with
            | ub => simp [h1] at e
            | hang => simp [h1] at e
            | ok s1 =>
              rw [h1] at e
              simp only [Outcome.bind_ok] at e
              have hp1 := dropMids_paths h1
              split at e
              · simp at e
              · rename_i hany
                have halive : ∀ x ∈ s.paths, x.1 ≠ id → x.1 ∉ s.freedPaths := by
                  intro x hx hne hfr
                  apply hany
                  rw [List.any_eq_true]
                  refine ⟨x, by rw [hp1.1]; exact hx, ?_⟩
                  rw [hp1.2]
                  simp [hne, hfr]
                refine ⟨?_, halive⟩
                revert e
                cases h2 : (if usedByOthers s1 id p.dst = true then Outcome.ok s1 else dropFilter s1 p.dst) with
                | ub => simp
                | hang => simp
                | ok s2 =>
                  have hp2 : s2.paths = s1.paths := by
                    split at h2
                    · simp at h2; rw [h2]
                    · exact (dropFilter_paths h2).1
                  simp only [Outcome.bind_ok]
                  cases h3 : (if usedByOthers s2 id p.org = true then Outcome.ok s2 else dropFilter s2 p.org) with
                  | ub => simp
                  | hang => simp
                  | ok s3 =>
                    have hp3 : s3.paths = s2.paths := by
                      split at h3
                      · simp at h3; rw [h3]
                      · exact (dropFilter_paths h3).1
                    simp only [Outcome.bind_ok, Outcome.ok.injEq, Prod.mk.injEq, and_true]
                    rintro rfl
                    exact hp3.trans (hp2.trans hp1.1)

/-- **C14 (recorded exception).**  With two or more paths a stop never succeeds, whatever the order in
which the map is enumerated: after the first path is deleted, the second one reads it (undefined
behaviour) unless it is refused before. -/
theorem stop_with_two_paths_fails (s : S) (a b : Int × Path) (rest : List (Int × Path))
    (disc : Int → Bool) (hab : a.1 ≠ b.1) (ha : a ∈ s.paths) :
    ∀ s', stop s (a :: b :: rest) disc ≠ .ok (s', true) := by
  intro s' e
  unfold stop at e
  cases hp : s.pool with
  | none => simp [hp] at e
  | some rs =>
    simp only [hp, stopPaths] at e
    cases h1 : deletePath { s with workers := false, pool := some rs } a.1 (disc a.1) with
    | ub => simp [h1] at e
    | hang => simp [h1] at e
    | ok x =>
      obtain ⟨s1, r1⟩ := x
      cases r1 with
      | false => simp [h1] at e
      | true =>
        have hfreed := deletePath_true_freed h1
        have hpaths := (deletePath_true_alive h1).1
        simp only [h1, Outcome.bind_ok, Bool.not_true, Bool.false_eq_true, if_false] at e
        cases h2 : deletePath s1 b.1 (disc b.1) with
        | ub => simp [h2] at e
        | hang => simp [h2] at e
        | ok y =>
          obtain ⟨s2, r2⟩ := y
          cases r2 with
          | false => simp [h2] at e
          | true =>
            have := (deletePath_true_alive h2).2 a (by rw [hpaths]; exact ha) hab
            exact this hfreed

/-- **C14 (recorded exception, a run).**  Two ordinary paths sharing their ends: stopping is undefined
behaviour. -/
theorem stop_with_two_paths_is_ub :
    runOps step S.init
      [.createFilter 1 true, .createFilter 2 true, .createPath 10 1 2 1 1 [] 0 0,
       .createPath 11 1 2 2 2 [] 0 0, .stop (fun _ => true)] = .ub := by
  decide

/-- **C14 (recorded exception).**  A refused stop has already ended the worker threads: the manager
keeps its filters and paths, but nothing will run them. -/
theorem refused_stop_ends_workers {s : S} (h : WF s) (id : Int) (p : Path) (disc : Int → Bool)
    (hp : s.paths = [(id, p)]) (hr : ¬ (disc id = true ∧ ∀ f, Uses p f → Reg s f)) :
    ∃ s', stop s s.paths disc = .ok (s', false) ∧ s'.workers = false ∧ s'.filters = s.filters ∧
      s'.paths = s.paths := by
  refine ⟨_, stop_refused h id p disc hp hr, ?_, rfl, rfl⟩
  show (if s.pool = none then s.workers else false) = false
  split
  · rename_i hq
    have := (h.stopped hq).2
    rw [hp] at this; cases this
  · rfl

/-! ## Non-triviality -/

/-- A history of polite requests: a path with an intermediate filter is made, another one sharing its
ends, refused requests, the first is removed. -/
def exOps : List Op :=
  [.createFilter 1 true, .createFilter 2 true, .createFilter 3 true, .createFilter 3 true,
   .createPath 10 1 2 (-1) (-1) [3] 1 1, .connectPath 10 true, .removeFilter 3,
   .createPath 11 1 2 7 8 [] 1 1, .createPath 12 1 2 7 8 [1] 1 1, .removePath 10 true, .removePath 99 true]

example : (runOps step S.init exOps).map (·.2) =
    .ok [true, true, true, false, true, true, false, true, false, true, true] := by decide

example : (runOps step S.init exOps).map (fun x => (x.1.filters, x.1.paths.map (·.1), x.1.deleted)) =
    .ok ([(1, 0), (2, 1)], [11], [2]) := by decide

/-- One path with an intermediate filter: the hypotheses of the stop theorem. -/
def exState : S :=
  { filters := [(1, 0), (2, 1), (3, 2)], paths := [(10, { org := 1, dst := 2, orgW := 1, dstR := 1, mids := [3] })]
    freedPaths := [], pool := some [(1, 0), (2, 1), (3, 2)], workers := true, next := 3, deleted := [] }

example : runOps step S.init (exOps.take 6) = .ok (exState, [true, true, true, false, true, true]) := by decide

example : Consistent exState := by
  intro e he f hu
  simp only [exState, List.mem_singleton] at he
  subst he
  simp only [Uses, List.mem_singleton] at hu
  rcases hu with rfl | rfl | rfl
  · exact ⟨0, by simp [exState]⟩
  · exact ⟨1, by simp [exState]⟩
  · exact ⟨2, by simp [exState]⟩

example : Along Careful S.init (exOps.take 5) := by
  simp only [exOps, List.take, Along, Careful, true_and]
  intros; trivial

example : (stop exState exState.paths (fun _ => true)).map (fun x => (x.1.filters, x.1.paths, x.1.deleted, x.2)) =
    .ok ([], [], [0, 1, 2], true) := by decide

/-- The deletions at the end of `stop` (src/PipelineManager.cpp:92-94) are defined only when no filter is deleted twice: one
that was deleted before, or that is listed under two ids, makes them undefined. -/
theorem deleting_twice_is_undefined (fs : List (Int × Nat)) : ∀ del : List Nat, del.Nodup →
    ¬ (fs.map (·.2) ++ del).Nodup → deleteAll del fs = .ub := by
  induction fs with
  | nil => intro del hd h; exact absurd hd h
  | cons e fs ih =>
    intro del hd h
    by_cases he : e.2 ∈ del
    · rw [deleteAll, if_pos he]
    · rw [deleteAll, if_neg he]
      refine ih _ (List.nodup_cons.2 ⟨he, hd⟩) fun hn => h ?_
      exact (List.Perm.nodup_iff List.perm_middle).1 hn

example : deleteAll [1] [(4, 0), (7, 1)] = .ub := by decide

example : deleteAll [] [(4, 0), (7, 0)] = .ub := by decide

example : deleteAll [1] [(4, 0), (7, 2)] = .ok [2, 0, 1] := by decide

end Lms.Pipeline
