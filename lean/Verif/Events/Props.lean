import Verif.Events.Model

/-!
# C15: events run in time order, never early, each exactly once
-/

namespace Lms.Events

theorem lt_false_iff {a b : Ev} : a.lt b = false ↔ a.ts ≤ b.ts := by
  simp [Ev.lt]

/-- **C15 (when an event may run).**  With a positive delay an event can run exactly from the
nanosecond of its time stamp plus delay; with no delay (zero, or the −1 used when a request gives none)
the truncation to milliseconds tolerates a clock behind the time stamp. -/
theorem can_iff (e : Ev) (now : Int) :
    e.can now = true ↔
      (if 0 < e.delay then e.ts + e.delay * 1000000 ≤ now
       else e.ts + (e.delay - 1) * 1000000 < now) := by
  simp only [Ev.can, decide_eq_true_eq, ge_iff_le]
  have key : ∀ d : Int, Int.tdiv d 1000000 = if 0 ≤ d then d / 1000000 else -((-d) / 1000000) := by
    intro d
    split
    · rename_i h; exact Int.tdiv_eq_ediv_of_nonneg h
    · rename_i h
      have : d = -(-d) := by omega
      rw [this, Int.neg_tdiv, Int.tdiv_eq_ediv_of_nonneg (by omega)]
      simp
  rw [key]
  split <;> split <;> omega

/-- Every event in the queue when a poll starts is taken by it or left in the queue, and nothing else
is. -/
theorem poll_perm {q q' : List Ev} {xs : List Exec} {last : Option Int} (h : Poll q xs last q') :
    q.Perm (xs.map (·.ev) ++ q') := by
  induction h with
  | empty => simp
  | wait => simp
  | @exec q e now xs last q' ht _ _ ih =>
    simp only [List.map_cons, List.cons_append]
    exact (List.perm_cons_erase ht.1).trans (ih.cons e)

/-- Everything pushed by a history. -/
def pushed : List Op → List Ev
  | [] => []
  | .push e :: ops => e :: pushed ops
  | .poll _ _ :: ops => pushed ops

/-- **C15 (exactly once).**  Over any history, the events initially queued or pushed are, counting
repetitions, exactly the events taken plus those still queued: none is lost, duplicated or invented. -/
theorem each_event_runs_exactly_once {q q' : List Ev} {ops : List Op} {tr : List Exec}
    (h : Run q ops tr q') : (q ++ pushed ops).Perm (tr.map (·.ev) ++ q') := by
  induction h with
  | nil => simp [pushed]
  | push _ ih => simpa [push, pushed] using ih
  | @poll q xs last q1 ops tr q' hp _ ih =>
    simp only [pushed, List.map_append, List.append_assoc]
    have h1 : (q ++ pushed ops).Perm (xs.map (·.ev) ++ q1 ++ pushed ops) := (poll_perm hp).append_right _
    refine h1.trans ?_
    rw [List.append_assoc]
    exact ih.append_left _

/-- **C15 (never early).**  Every event taken was executable at the clock reading it was taken at. -/
theorem events_never_run_early {q q' : List Ev} {ops : List Op} {tr : List Exec}
    (h : Run q ops tr q') : ∀ x ∈ tr,
      (0 < x.ev.delay → x.ev.ts + x.ev.delay * 1000000 ≤ x.now) ∧
      (x.ev.delay ≤ 0 → x.ev.ts + (x.ev.delay - 1) * 1000000 < x.now) := by
  have hp : ∀ {q xs last q'}, Poll q xs last q' → ∀ x ∈ xs, x.ev.can x.now = true := by
    intro q xs last q' h
    induction h with
    | empty => simp
    | wait => simp
    | exec _ hc _ ih =>
      intro x hx
      rcases List.mem_cons.1 hx with rfl | hx
      · exact hc
      · exact ih x hx
  have hall : ∀ x ∈ tr, x.ev.can x.now = true := by
    induction h with
    | nil => simp
    | push _ ih => exact ih
    | poll hpo _ ih =>
      intro x hx
      rcases List.mem_append.1 hx with hx | hx
      · exact hp hpo x hx
      · exact ih x hx
  intro x hx
  have := (can_iff x.ev x.now).1 (hall x hx)
  split at this
  · exact ⟨fun _ => this, fun _ => by omega⟩
  · exact ⟨fun _ => by omega, fun _ => this⟩

/-- **C15 (order).**  Within a poll the events taken have non-decreasing time stamps, and none left in
the queue has an earlier stamp than one taken. -/
theorem poll_runs_in_time_order {q q' : List Ev} {xs : List Exec} {last : Option Int}
    (h : Poll q xs last q') :
    xs.Pairwise (fun a b => a.ev.ts ≤ b.ev.ts) ∧ ∀ x ∈ xs, ∀ y ∈ q', x.ev.ts ≤ y.ts := by
  induction h with
  | empty => simp
  | wait => simp
  | @exec q e now xs last q' ht _ hp ih =>
    have hmin : ∀ y ∈ q.erase e, e.ts ≤ y.ts := fun y hy => lt_false_iff.1 (ht.2 y (List.mem_of_mem_erase hy))
    have hperm := poll_perm hp
    constructor
    · rw [List.pairwise_cons]
      refine ⟨?_, ih.1⟩
      intro b hb
      apply hmin
      rw [hperm.mem_iff]
      exact List.mem_append_left _ (List.mem_map_of_mem hb)
    · intro x hx y hy
      rcases List.mem_cons.1 hx with rfl | hx
      · exact hmin y (by rw [hperm.mem_iff]; exact List.mem_append_right _ hy)
      · exact ih.2 x hx y hy

/-- **C15 (nothing due is left behind).**  When a poll ends, the queue is empty, or at the last clock
reading some event with the earliest stamp was still waiting out its delay: an event that was due at that
reading is left only behind such an earlier-stamped one. -/
theorem due_events_are_taken {q q' : List Ev} {xs : List Exec} {last : Option Int}
    (h : Poll q xs last q') :
    (last = none ∧ q' = []) ∨
    ∃ now, last = some now ∧ ∃ w ∈ q', w.can now = false ∧ ∀ y ∈ q', w.ts ≤ y.ts := by
  induction h with
  | empty => exact Or.inl ⟨rfl, rfl⟩
  | @wait q e now ht hc =>
    exact Or.inr ⟨now, rfl, e, ht.1, hc, fun y hy => lt_false_iff.1 (ht.2 y hy)⟩
  | exec _ _ _ ih => exact ih

theorem exists_top : ∀ q : List Ev, q ≠ [] → ∃ e, IsTop e q
  | [], h => absurd rfl h
  | [a], _ => ⟨a, by simp, by simp [lt_false_iff]⟩
  | a :: b :: q, _ => by
    obtain ⟨e, he, hm⟩ := exists_top (b :: q) (by simp)
    by_cases h : a.ts ≤ e.ts
    · refine ⟨a, by simp, ?_⟩
      intro x hx
      rw [lt_false_iff]
      rcases List.mem_cons.1 hx with rfl | hx
      · omega
      · have := lt_false_iff.1 (hm x hx); omega
    · refine ⟨e, List.mem_cons_of_mem _ he, ?_⟩
      intro x hx
      rw [lt_false_iff]
      rcases List.mem_cons.1 hx with rfl | hx
      · omega
      · exact lt_false_iff.1 (hm x hx)

/-- **C15 (a poll ends).**  From every queue and whatever the clock shows, a poll comes to an end (after
at most as many iterations as there are events). -/
theorem poll_terminates (clock : Nat → Int) (q : List Ev) :
    ∃ xs last q', Poll q xs last q' ∧ xs.length ≤ q.length ∧
      (∀ i (h : i < xs.length), xs[i].now = clock i) ∧ (∀ now, last = some now → now = clock xs.length) := by
  induction hn : q.length generalizing q clock with
  | zero =>
    have : q = [] := List.length_eq_zero_iff.1 hn
    subst this
    exact ⟨[], none, [], .empty, by simp, by simp, by simp⟩
  | succ n ih =>
    obtain ⟨e, ht⟩ := exists_top q (by intro h; simp [h] at hn)
    cases hc : e.can (clock 0) with
    | false => exact ⟨[], some (clock 0), q, .wait ht hc, by simp, by simp, by simp⟩
    | true =>
      have hlen : (q.erase e).length = n := by
        rw [List.length_erase_of_mem ht.1, hn]; omega
      obtain ⟨xs, last, q', hp, hl, hcl, hla⟩ := ih (fun i => clock (i + 1)) (q.erase e) hlen
      refine ⟨⟨e, clock 0⟩ :: xs, last, q', .exec ht hc hp, by simp; omega, ?_, ?_⟩
      · intro i hi
        cases i with
        | zero => rfl
        | succ i => simpa using hcl i (by simpa using hi)
      · simpa using hla

/-- **C15 (recorded exception).**  Order is by time stamp, not by time stamp plus delay: an event that
is due is held back for as long as an earlier-stamped one waits.  Here the second event has been due for
nine seconds, and the only poll possible takes nothing. -/
theorem due_event_held_back :
    let slow : Ev := { id := 0, ts := 0, delay := 10000, known := true }
    let quick : Ev := { id := 1, ts := 1000000, delay := 0, known := true }
    quick.can 9000000000 = true ∧
    ∀ xs last q', Poll [slow, quick] xs last q' →
      (∀ x ∈ xs, x.now = 9000000000) → xs = [] ∧ q' = [slow, quick] := by
  intro slow quick
  refine ⟨by decide, ?_⟩
  intro xs last q' h hx
  generalize hq : [slow, quick] = q at h
  cases h with
  | empty => simp at hq
  | wait => exact ⟨rfl, rfl⟩
  | @exec q e now xs last q' ht hc hp =>
    exfalso
    have hn : now = 9000000000 := hx ⟨e, now⟩ (by simp)
    subst hq hn
    have hmem := ht.1
    have h0 := ht.2 slow (by simp)
    simp only [List.mem_cons, List.not_mem_nil, or_false] at hmem
    rcases hmem with rfl | rfl
    · revert hc; decide
    · revert h0; decide

/-! ## Non-triviality -/

def exA : Ev := { id := 0, ts := 5000000, delay := 2, known := true }
def exB : Ev := { id := 1, ts := 1000000, delay := -1, known := false }
def exC : Ev := { id := 2, ts := 9000000, delay := 50, known := true }

/-- Three events pushed out of order; the first two run in stamp order, the third waits. -/
example : Run [] [.push exA, .push exB, .push exC, .poll [⟨exB, 7000000⟩, ⟨exA, 7000001⟩] (some 7000002)]
    [⟨exB, 7000000⟩, ⟨exA, 7000001⟩] [exC] := by
  refine .push (.push (.push ?_))
  refine Run.poll (tr := []) (q1 := [exC]) ?_ .nil
  refine .exec ⟨by decide, by decide⟩ (by decide) ?_
  refine .exec ⟨by decide, by decide⟩ (by decide) ?_
  exact .wait (e := exC) ⟨by decide, by decide⟩ (by decide)

example : exA.can 6999999 = false := by decide

end Lms.Events
