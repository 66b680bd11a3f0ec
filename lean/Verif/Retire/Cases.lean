import Verif.Retire.Props
import Verif.Rewire.Cases

/-! C94: concrete runs, meeting the hypotheses of the theorems, and what happens to a source deleted while it is
queued. -/

namespace Lms.Retire

open Rewire (D Quiet idleB allowedB committed seen newcomer unwoken source alone sink nothing both)
open Net (S)

/-- `Off`, with workers below `n`. -/
def offB (n : Nat) (p : Pool.P) (k : Nat) : Bool :=
  decide (p.reg (k : Int) ≠ some k) && !p.q.queue.contains k &&
    (List.range n).all fun w => decide (p.ph w ≠ .run k) && decide (p.ph w ≠ .post k)

/-- `Loose`, with queues below `m`. -/
def looseB {α : Type} (m : Nat) (x : D α) (k : Nat) : Bool :=
  (List.range m).all fun q => !x.live q || (x.g.src q != k && !(x.g.dst q).contains k)

/-- `Allowed`, with workers below `n` and queues below `m`. -/
def okB {α : Type} (n m : Nat) (r : R α) : Op α → Bool
  | .net (.flow (.add k)) => !r.gone k
  | .net (.connect w k q size d) => allowedB n r.x (.connect w k q size d) && !r.gone w && !r.gone k && decide (q < m)
  | .net (.share q k) => allowedB n r.x (.share q k) && !r.gone k
  | .net op => allowedB n r.x op
  | .create _ _ _ => true
  | .remove _ => true
  | .delete k => !r.gone k && offB n r.x.s.pool k && looseB m r.x k

/-- Workers from `n` on do nothing, queues from `m` on are not there. -/
def Tame {α : Type} (n m : Nat) (r : R α) : Prop := Quiet n r.x ∧ ∀ q, m ≤ q → r.x.live q = false

theorem offB_off {α : Type} {n m : Nat} {r : R α} (ht : Tame n m r) {k : Nat} (h : offB n r.x.s.pool k = true) : Off r.x.s.pool k := by
  simp only [offB, Bool.and_eq_true, decide_eq_true_eq, Bool.not_eq_true'] at h
  refine ⟨h.1.1, by simpa using h.1.2, fun w => ?_⟩
  by_cases e : n ≤ w
  · rw [ht.1 w e]; exact ⟨by simp, by simp⟩
  · have := List.all_eq_true.1 h.2 w (List.mem_range.2 (by omega))
    simpa using this

theorem looseB_loose {α : Type} {n m : Nat} {r : R α} (ht : Tame n m r) {k : Nat} (h : looseB m r.x k = true) : Loose r.x k := by
  intro q hq
  by_cases e : m ≤ q
  · rw [ht.2 q e] at hq; cases hq
  · have := List.all_eq_true.1 h q (List.mem_range.2 (by omega))
    rw [hq] at this
    simpa using this

theorem okB_allowed {α : Type} {n m : Nat} {r : R α} (ht : Tame n m r) {op : Op α} (h : okB n m r op = true) : Allowed r op := by
  cases op with
  | net op =>
    cases op with
    | flow op =>
      cases op with
      | add k => simpa [okB, Allowed] using h
      | _ => trivial
    | connect w k q size d =>
      simp only [okB, Bool.and_eq_true, Bool.not_eq_true'] at h
      exact ⟨Rewire.allowedB_allowed ht.1 h.1.1.1, h.1.1.2, h.1.2⟩
    | share q k =>
      simp only [okB, Bool.and_eq_true, Bool.not_eq_true'] at h
      exact ⟨Rewire.allowedB_allowed ht.1 h.1, h.2⟩
    | leave q k => exact Rewire.allowedB_allowed ht.1 (op := .leave q k) h
    | cut q => exact Rewire.allowedB_allowed ht.1 (op := .cut q) h
  | create k t b => trivial
  | remove k => trivial
  | delete k =>
    simp only [okB, Bool.and_eq_true, Bool.not_eq_true'] at h
    exact ⟨h.1.1, offB_off ht h.1.2, looseB_loose ht h.2⟩

theorem tame_step {α : Type} {n m : Nat} {r r' : R α} (ht : Tame n m r) {op : Op α} (h : okB n m r op = true) {o : Out α}
    (hs : r.step op = .ok (r', o)) : Tame n m r' := by
  cases op with
  | net op =>
    have ha : allowedB n r.x op = true := by
      cases op with
      | flow op =>
        cases op with
        | add k => rfl
        | _ => exact h
      | connect w k q size d => simp only [okB, Bool.and_eq_true] at h; exact h.1.1.1
      | share q k => simp only [okB, Bool.and_eq_true] at h; exact h.1
      | leave q k => exact h
      | cut q => exact h
    simp only [R.step] at hs
    split at hs
    · simp at hs
    · cases hc : r.x.step op with
      | ub => rw [hc] at hs; simp at hs
      | hang => rw [hc] at hs; simp at hs
      | ok y =>
        obtain ⟨x', o'⟩ := y
        rw [hc] at hs
        simp at hs
        rw [← hs.1]
        refine ⟨Rewire.quiet_step ht.1 ha hc, fun q hq => ?_⟩
        show x'.live q = false
        have := ht.2 q hq
        cases op with
        | flow op =>
          simp only [D.step] at hc
          split at hc
          · cases he : r.x.s.step r.x.g op with
            | ub => rw [he] at hc; simp at hc
            | hang => rw [he] at hc; simp at hc
            | ok z => rw [he] at hc; simp at hc; rw [← hc.1]; exact this
          · simp at hc
        | connect w k p size d =>
          simp only [okB, Bool.and_eq_true, decide_eq_true_eq] at h
          simp only [D.step] at hc
          cases hc
          show Pool.set r.x.live p true q = false
          rw [Pool.set_ne _ _ (by omega)]
          exact this
        | share p k => simp only [D.step] at hc; split at hc <;> cases hc; exact this
        | leave p k => simp only [D.step] at hc; split at hc <;> cases hc; exact this
        | cut p =>
          simp only [D.step] at hc
          split at hc <;> cases hc
          show Pool.set r.x.live p false q = false
          unfold Pool.set
          split
          · rfl
          · exact this
  | create k t b => simp only [R.step] at hs; split at hs <;> cases hs <;> exact ht
  | remove k =>
    simp only [R.step, Pool.P.step] at hs
    (repeat' split at hs) <;> simp at hs <;> rw [← hs.1] <;> exact ht
  | delete k => simp only [R.step] at hs; split at hs <;> cases hs; exact ht

/-- `AllowedRun`, with workers below `n` and queues below `m`. -/
def checkRun {α : Type} (n m : Nat) : R α → List (Op α) → Bool
  | _, [] => true
  | r, op :: ops => okB n m r op && (match r.step op with | .ok (r', _) => checkRun n m r' ops | _ => true)

theorem checkRun_allowed {α : Type} {n m : Nat} (ops : List (Op α)) : ∀ {r : R α}, Tame n m r → checkRun n m r ops = true → AllowedRun r ops := by
  induction ops with
  | nil => intro _ _ _; trivial
  | cons op ops ih =>
    intro r ht h
    simp only [checkRun, Bool.and_eq_true] at h
    refine ⟨okB_allowed ht h.1, fun r' o hs => ?_⟩
    have h2 := h.2
    rw [hs] at h2
    exact ih (tame_step ht h.1 hs) h2

theorem tame_run {α : Type} {n m : Nat} (ops : List (Op α)) : ∀ {r r' : R α} {outs : List (Out α)}, Tame n m r → checkRun n m r ops = true →
    runOps R.step r ops = .ok (r', outs) → Tame n m r' := by
  induction ops with
  | nil => intro r r' outs ht _ hr; simp [runOps] at hr; rw [← hr.1]; exact ht
  | cons op ops ih =>
    intro r r' outs ht hc hr
    obtain ⟨c, o, os, h1, h2, _⟩ := runOps_cons_ok hr
    simp only [checkRun, Bool.and_eq_true] at hc
    have hc2 := hc.2
    rw [h1] at hc2
    exact ih (tame_step ht hc.1 h1) hc2 h2

/-- No filters yet. -/
def start : R Nat := R.init 0 (fun _ => 0)

theorem start_tame : Tame 2 9 start := ⟨fun _ _ => rfl, fun _ _ => rfl⟩

/-- The steps of the workers and of the connections. -/
def on (ops : List (Rewire.Op Nat)) : List (Op Nat) := ops.map .net

/-- Filter `k` is made and given to the pool. -/
def make (k : Nat) (b : Bool) : List (Op Nat) := [.create k 0 b, .net (.flow (.add k))]

/-- A source and two sinks; the source is connected to filter 1 and commits a frame, which filter 1 takes. -/
def opening : List (Op Nat) :=
  make 1 false ++ make 2 false ++ make 0 true ++ on (nothing 0 0 ++ nothing 0 0 ++ [.connect 0 1 7 3 (fun _ => 0)] ++ source 0 7 5 ++ sink 0)

/-- Filter 1 is disconnected, removed and deleted; the source is connected to filter 2 and commits to it. -/
def replaced : List (Op Nat) :=
  opening ++ [.net (.cut 7), .remove 1, .delete 1] ++ on ([.connect 0 2 8 3 (fun _ => 0)] ++ source 1 8 6)

/-- Another filter is made under the id 1, connected by a queue under the number of the old one, and both get
frames. -/
def again : List (Op Nat) :=
  replaced ++ make 1 false ++ [.net (.connect 0 1 7 3 (fun _ => 0))] ++ on (sink 0 ++ both 0 9 10)

/-- The source is removed while it is at work and deleted when it is disconnected. -/
def ended : List (Op Nat) :=
  again ++ on (sink 0 ++ sink 0) ++ on ((both 0 11 12).take 7) ++ [.remove 0] ++ on ((both 0 11 12).drop 7) ++
    [.net (.cut 7), .net (.cut 8), .delete 0]

/-- What a run comes to. -/
def comes (ops : List (Op Nat)) (p : R Nat → List (Out Nat) → Bool) : Bool :=
  match runOps R.step start ops with | .ok (x, outs) => p x outs | _ => false

theorem comes_to {ops : List (Op Nat)} {P : R Nat → List (Out Nat) → Prop} [∀ x outs, Decidable (P x outs)]
    (h : comes ops (fun x outs => decide (P x outs)) = true) : ∃ x outs, runOps R.step start ops = .ok (x, outs) ∧ P x outs := by
  unfold comes at h
  cases hc : runOps R.step start ops with
  | ub => simp [hc] at h
  | hang => simp [hc] at h
  | ok y => obtain ⟨x, outs⟩ := y; simp [hc] at h; exact ⟨x, outs, rfl, h⟩

theorem replaced_allowed : AllowedRun start replaced := checkRun_allowed (n := 2) (m := 9) _ start_tame (by decide +kernel)
theorem again_allowed : AllowedRun start again := checkRun_allowed (n := 2) (m := 9) _ start_tame (by decide +kernel)
theorem ended_allowed : AllowedRun start ended := checkRun_allowed (n := 2) (m := 9) _ start_tame (by decide +kernel)

/-- The new filter under an old id, at a queue under an old number, has to do with the new frames only; the
other has lost nothing. -/
example : ∃ r outs, runOps R.step start (again ++ on (sink 0 ++ sink 1)) = .ok (r, outs) ∧
    AllowedRun start (again ++ on (sink 0 ++ sink 1)) ∧ r.x.g.dst 7 = [1] ∧ r.x.g.dst 8 = [2] ∧
    committed 7 (nets outs) = [9] ∧ seen 7 1 (nets outs) = [9] ∧ committed 8 (nets outs) = [6, 10] ∧ seen 8 2 (nets outs) = [6, 10] := by
  obtain ⟨r, outs, h, h1⟩ := comes_to (ops := again ++ on (sink 0 ++ sink 1)) (P := fun r outs => r.x.g.dst 7 = [1] ∧ r.x.g.dst 8 = [2] ∧
    committed 7 (nets outs) = [9] ∧ seen 7 1 (nets outs) = [9] ∧ committed 8 (nets outs) = [6, 10] ∧ seen 8 2 (nets outs) = [6, 10])
    (by decide +kernel)
  exact ⟨r, outs, h, checkRun_allowed (n := 2) (m := 9) _ start_tame (by decide +kernel), h1⟩

/-- A frame waits before a filter made after another was deleted, and so does the filter. -/
example : ∃ r outs, runOps R.step start again = .ok (r, outs) ∧ 7 ∈ r.x.g.ins 1 ∧ unwoken 7 1 (nets outs) = false ∧
    r.x.s.pool.reg 1 = some 1 ∧ (r.x.s.ring 7).getElements = 1 ∧ 1 ∈ r.x.s.pool.q.queue := comes_to (by decide +kernel)

/-- A source is scheduled after another filter has gone. -/
example : ∃ r outs, runOps R.step start replaced = .ok (r, outs) ∧ r.gone 1 = true ∧ r.x.g.periodic 0 = true ∧
    r.x.s.pool.reg 0 = some 0 ∧ 0 ∈ r.x.s.pool.q.queue := comes_to (by decide +kernel)

/-- The source is gone; what it had committed before the connections were cut is gone with the queues. -/
example : ∃ r outs, runOps R.step start ended = .ok (r, outs) ∧ r.gone 0 = true ∧ r.x.s.pool.reg 0 = none ∧
    r.x.s.pool.q.queue = [1, 2] ∧ r.x.live 7 = false ∧ r.x.live 8 = false := comes_to (by decide +kernel)

/-- After its last round the pool has nothing to do with the source removed while it was at work. -/
example : ∃ r outs, runOps R.step start (ended.take (ended.length - 3)) = .ok (r, outs) ∧ Off r.x.s.pool 0 ∧
    ∀ op ∈ ended.drop (ended.length - 3), ∀ j, op = .net (.flow (.add j)) → j ≠ 0 := by
  obtain ⟨r, outs, h, h1⟩ := comes_to (ops := ended.take (ended.length - 3)) (P := fun r _ => offB 2 r.x.s.pool 0 = true) (by decide +kernel)
  refine ⟨r, outs, h, offB_off (m := 9) (tame_run (n := 2) (m := 9) _ start_tame (by decide +kernel) h) h1, ?_⟩
  intro op hop j e
  have : ended.drop (ended.length - 3) = [.net (.cut 7), .net (.cut 8), .delete 0] := rfl
  rw [this] at hop
  simp [e] at hop

/-- All is at rest after filters have come and gone: the queues are empty. -/
example : ∃ r outs, runOps R.step start (again ++ on (sink 0 ++ sink 1)) = .ok (r, outs) ∧ Net.AtRest r.x.g r.x.s ∧ 7 ∈ r.x.g.ins 1 ∧
    unwoken 7 1 (nets outs) = false ∧ newcomer 7 1 (nets outs) = false ∧ r.x.s.pool.reg 1 = some 1 := by
  obtain ⟨r, outs, hr, h1, h2, h3, h4⟩ := comes_to (ops := again ++ on (sink 0 ++ sink 1)) (P := fun r outs => r.x.s.pool.ph 0 = .idle ∧
    r.x.s.pool.ph 1 = .idle ∧ (∀ k ∈ r.x.s.pool.q.queue, r.x.g.periodic k = true ∧ r.x.g.ins k = []) ∧ 7 ∈ r.x.g.ins 1 ∧
    unwoken 7 1 (nets outs) = false ∧ newcomer 7 1 (nets outs) = false ∧ r.x.s.pool.reg 1 = some 1) (by decide +kernel)
  refine ⟨r, outs, hr, ⟨fun w => ?_, h3⟩, h4⟩
  rcases w with _ | _ | w
  · exact h1
  · exact h2
  · exact (tame_run (n := 2) (m := 9) _ start_tame (by decide +kernel) hr).1 _ (by omega)

/-- A source nobody is at work on. -/
example : ∃ r outs, runOps R.step start (make 0 true) = .ok (r, outs) ∧ AllowedRun start (make 0 true) ∧ r.x.g.periodic 0 = true ∧
    r.x.s.pool.reg 0 = some 0 ∧ (∀ w j, r.x.s.pool.ph w ≠ .post j) ∧ r.x.s.pool.lock = none ∧ (∀ w, r.x.s.pool.ph w ≠ .run 0) ∧
    ∃ r', r.step (.remove 0) = .ok (r', .removed 0) :=
  ⟨_, _, rfl, checkRun_allowed (n := 2) (m := 9) _ start_tame (by decide +kernel), rfl, rfl, fun _ _ => by simp [start, R.init, D.init, S.init, Pool.P.init],
    rfl, fun _ => by simp [start, R.init, D.init, S.init, Pool.P.init], _, rfl⟩

/-- **C94 (recorded).** A source is made, removed and deleted, without a connection and with nobody at work: the
next worker that looks for a job uses the deleted filter (see also C12). -/
theorem source_deleted_while_queued :
    (∃ r outs, runOps R.step start (make 0 true ++ [.remove 0, .delete 0]) = .ok (r, outs) ∧ r.x.s.pool.reg 0 = none ∧
      (∀ w, r.x.s.pool.ph w = .idle) ∧ r.x.s.pool.q.queue = [0]) ∧
    ∀ w now, runOps R.step start (make 0 true ++ [.remove 0, .delete 0, .net (.flow (.pick w now))]) = .ub :=
  ⟨⟨_, _, rfl, rfl, fun _ => rfl, rfl⟩, fun _ _ => rfl⟩

/-- **C94 (recorded).** A filter is removed while a worker is at work on it, and deleted as soon as it does not
run any more, which is all `removeTask` waits for: the worker has yet to ask it for pending jobs (see also
C12). -/
theorem filter_deleted_too_soon :
    (∃ r outs, runOps R.step start (make 0 true ++ on ((alone 1).take 2) ++ [.remove 0] ++ on (((alone 1).drop 2).take 4) ++ [.delete 0]) =
        .ok (r, outs) ∧ r.x.s.pool.reg 0 = none ∧ r.x.s.pool.running 0 = false ∧ r.x.s.pool.q.queue = []) ∧
      runOps R.step start (make 0 true ++ on ((alone 1).take 2) ++ [.remove 0] ++ on (((alone 1).drop 2).take 4) ++
        [.delete 0, .net (.flow (.post 1))]) = .ub :=
  ⟨⟨_, _, rfl, by decide +kernel⟩, by rfl⟩

end Lms.Retire
