import Verif.FrameQueue.Lemmas
import Verif.FrameQueue.Concurrent

/-! # C01, C02, C03, C04: properties of the frame queue -/

namespace Lms.FrameQueue

variable {α : Type}

/-! ## C01 -/

/-- Operations without force. -/
def Op.unforced : Op α → Bool
  | .forceFill _ | .forcePut _ => false
  | _ => true

/-- Frames accepted in a history (operations with their outputs). -/
def accepted : List (Op α × Out α) → List α
  | [] => []
  | (.put x, .done) :: h => x :: accepted h
  | _ :: h => accepted h

/-- Frames handed over (and released) in a history. -/
def delivered : List (Op α × Out α) → List α
  | [] => []
  | (.take, .frame (some x)) :: h => x :: delivered h
  | _ :: h => delivered h

/-- What a reader obtains by taking frames until the queue reports to be empty. -/
def drain (r : Ring α) : Outcome (List (Out α)) :=
  (runOps step r (List.replicate r.getElements .take)).map Prod.snd

/-- States reachable from a freshly created queue by any operations (forced ones included). -/
def Reachable (maxFrames : Nat) (d : Nat → α) (r : Ring α) : Prop :=
  ∃ ops outs, runOps step (Ring.create maxFrames d) ops = .ok (r, outs)

/-- **C01 (refinement).** Every history, forced operations included, produces exactly the outputs of
the abstract bounded queue; in particular no operation is undefined behaviour or hangs. -/
theorem queue_refines_bounded_fifo (maxFrames : Nat) (hm : 2 ≤ maxFrames) (d : Nat → α)
    (ops : List (Op α)) :
    ∃ r, runOps step (Ring.create maxFrames d) ops =
        .ok (r, (runSpec Spec.step (Spec.init maxFrames d) ops).2) := by
  obtain ⟨r, hr, _⟩ := runOps_refines step Spec.step (fun _ => True) Rel
    (fun s t op _ h => step_rel s t op h) ops _ _ (fun _ _ => trivial) (create_rel maxFrames hm d)
  exact ⟨r, hr⟩

theorem reachable_rel {maxFrames : Nat} (hm : 2 ≤ maxFrames) {d : Nat → α} {r : Ring α}
    (h : Reachable maxFrames d r) : ∃ t, Rel r t ∧ t.cap + 1 = min maxFrames 250 := by
  obtain ⟨ops, outs, h⟩ := h
  obtain ⟨r', hr', hrel⟩ := runOps_refines step Spec.step (fun _ => True) Rel
    (fun s t op _ h => step_rel s t op h) ops _ _ (fun _ _ => trivial) (create_rel maxFrames hm d)
  rw [hr'] at h
  simp at h
  obtain ⟨rfl, _⟩ := h
  refine ⟨_, hrel, ?_⟩
  have hcap : ∀ (ops : List (Op α)) (t : Spec α), (runSpec Spec.step t ops).1.cap = t.cap := by
    intro ops
    induction ops with
    | nil => intro t; rfl
    | cons op ops ih =>
      intro t
      simp only [runSpec]
      rw [ih]
      cases op <;> simp only [Spec.step, Spec.makeRoom] <;> (try split) <;> rfl
  rw [hcap]
  simp only [Spec.init, MAX_FRAMES]
  omega

theorem drain_of_rel {r : Ring α} {t : Spec α} (h : Rel r t) :
    drain r = .ok (t.q.map fun x => .frame (some x)) := by
  unfold drain
  rw [h.getElements_eq]
  obtain ⟨r', hr', hrel'⟩ := runOps_refines step Spec.step (fun _ => True) Rel
    (fun s t op _ h => step_rel s t op h) (List.replicate t.q.length .take) r t
    (fun _ _ => trivial) h
  rw [hr']
  simp only [Outcome.map_ok]
  congr 1
  clear hr' hrel' h r'
  obtain ⟨cap, q, last, lost⟩ := t
  induction q generalizing last with
  | nil => rfl
  | cons x q ih =>
    simp only [List.length_cons, List.replicate_succ, runSpec, Spec.step, List.map_cons]
    rw [ih]

/-- **C01 (first in, first out).** For every unforced history from a new queue of `maxFrames ≥ 2`
frames: no operation fails; the accepted frames are the delivered frames followed by the frames
still queued; the queue holds at most `maxFrames - 1` (and at most 249) frames, reports their number
exactly, and hands them out next, in order. -/
theorem fifo_without_loss_or_duplication (maxFrames : Nat) (hm : 2 ≤ maxFrames) (d : Nat → α)
    (ops : List (Op α)) (hu : ∀ op ∈ ops, op.unforced = true) :
    ∃ r outs rest, runOps step (Ring.create maxFrames d) ops = .ok (r, outs) ∧
      accepted (ops.zip outs) = delivered (ops.zip outs) ++ rest ∧
      r.getElements = rest.length ∧ rest.length ≤ min maxFrames 250 - 1 ∧
      r.lost = 0 ∧
      drain r = .ok (rest.map fun x => .frame (some x)) := by
  obtain ⟨r, hr, hrel⟩ := runOps_refines step Spec.step (fun _ => True) Rel
    (fun s t op _ h => step_rel s t op h) ops _ _ (fun _ _ => trivial) (create_rel maxFrames hm d)
  refine ⟨r, _, _, hr, ?_, hrel.getElements_eq, ?_, ?_, drain_of_rel hrel⟩
  · -- generalise over the starting state of the abstract queue
    have key : ∀ (ops : List (Op α)) (t : Spec α), (∀ op ∈ ops, op.unforced = true) →
        t.q ++ accepted (ops.zip (runSpec Spec.step t ops).2) =
          delivered (ops.zip (runSpec Spec.step t ops).2) ++ (runSpec Spec.step t ops).1.q := by
      intro ops
      induction ops with
      | nil => intro t _; simp [runSpec, accepted, delivered]
      | cons op ops ih =>
        intro t hu
        have hu' := fun o ho => hu o (List.mem_cons_of_mem _ ho)
        have hop := hu op (by simp)
        cases op with
        | forceFill x => simp [Op.unforced] at hop
        | forcePut x => simp [Op.unforced] at hop
        | fill x =>
          have := ih t hu'
          simp only [runSpec, Spec.step, List.zip_cons_cons, accepted, delivered]
          exact this
        | put x =>
          simp only [runSpec, Spec.step]
          split
          · have := ih { t with q := t.q ++ [x] } hu'
            simp only [List.zip_cons_cons, accepted, delivered]
            rw [← this]; simp
          · simp only [List.zip_cons_cons, accepted, delivered]
            exact ih t hu'
        | peek =>
          simp only [runSpec, Spec.step, List.zip_cons_cons, accepted, delivered]
          exact ih t hu'
        | take =>
          simp only [runSpec, Spec.step]
          split
          · simp only [List.zip_cons_cons, accepted, delivered]
            exact ih t hu'
          · rename_i x q hq
            have := ih { t with q := q, last := x } hu'
            simp only [List.zip_cons_cons, accepted, delivered, hq, List.cons_append, this]
        | old =>
          simp only [runSpec, Spec.step, List.zip_cons_cons, accepted, delivered]
          exact ih t hu'
        | count =>
          simp only [runSpec, Spec.step, List.zip_cons_cons, accepted, delivered]
          exact ih t hu'
    have := key ops (Spec.init maxFrames d) hu
    simpa [Spec.init] using this
  · obtain ⟨t, ht, hcap⟩ := reachable_rel hm ⟨ops, _, hr⟩
    have h1 := ht.hlen; have h2 := ht.hcap
    have := hrel.hlen
    omega
  · rw [hrel.hlost]
    have key : ∀ (ops : List (Op α)) (t : Spec α), (∀ op ∈ ops, op.unforced = true) →
        (runSpec Spec.step t ops).1.lost = t.lost := by
      intro ops
      induction ops with
      | nil => intro t _; rfl
      | cons op ops ih =>
        intro t hu
        have hop := hu op (by simp)
        simp only [runSpec]
        rw [ih _ (fun o ho => hu o (List.mem_cons_of_mem _ ho))]
        cases op <;> simp [Op.unforced] at hop <;> simp only [Spec.step] <;> (try split) <;> rfl
    rw [key ops _ hu]
    rfl

/-- A non-trivial history: fill a 3-frame queue, overflow, read around the wrap. -/
example : ∃ r, runOps step (Ring.create 3 (fun _ => 0))
      [.put 1, .put 2, .put 3, .take, .put 4, .take, .take, .take, .count] =
    .ok (r, [.done, .done, .refused, .frame (some 1), .done, .frame (some 2), .frame (some 4),
      .frame none, .num 0]) := by
  obtain ⟨r, hr⟩ := queue_refines_bounded_fifo 3 (by omega) (fun _ => 0)
    [.put 1, .put 2, .put 3, .take, .put 4, .take, .take, .take, .count]
  exact ⟨r, hr⟩

/-- **C01.** A refused write and a read of an empty queue leave the queue unchanged. -/
theorem refused_write_changes_nothing {maxFrames : Nat} (hm : 2 ≤ maxFrames) {d : Nat → α}
    {r : Ring α} (h : Reachable maxFrames d r) :
    (∀ x r', step r (.put x) = .ok (r', .refused) → r' = r) ∧
    (∀ r', step r .take = .ok (r', .frame none) → r' = r) ∧
    ((∀ x, ∃ r', step r (.put x) = .ok (r', .refused)) ↔ r.getElements = min maxFrames 250 - 1) := by
  obtain ⟨t, ht, hcap⟩ := reachable_rel hm h
  have h1 := ht.hmax
  have h2 := ht.hcap
  have h3 := ht.hlen
  refine ⟨?_, ?_, ?_⟩
  · intro x r' hs
    simp only [step, ht.writerSlot_false] at hs
    by_cases hc : t.q.length < t.cap
    · obtain ⟨r'', hr'', _⟩ := ht.put hc x
      simp [hc, hr''] at hs
    · simpa [hc, eq_comm] using hs
  · intro r' hs
    simp only [step] at hs
    split at hs
    · rename_i i hi
      unfold Ring.removeFrame at hs
      split at hs
      · simp at hs
      · rw [if_neg (by omega)] at hs; simp at hs
    · simpa [eq_comm] using hs
  · rw [ht.getElements_eq]
    constructor
    · intro hall
      by_cases hc : t.q.length < t.cap
      · exfalso
        obtain ⟨r', hr'⟩ := hall t.last
        simp only [step, ht.writerSlot_false] at hr'
        obtain ⟨r'', hr'', _⟩ := ht.put hc t.last
        simp [hc, hr''] at hr'
      · omega
    · intro hc x
      refine ⟨r, ?_⟩
      simp only [step, ht.writerSlot_false]
      rw [if_neg (by omega)]
      rfl

/-- A full reachable queue exists (capacity 2 holds one frame). -/
example : ∃ r, Reachable 2 (fun _ => 0) r ∧ r.getElements = 1 :=
  ⟨_, ⟨[.put 5], _, rfl⟩, rfl⟩

/-- **C01.** When there is no new frame the reader is given the last released frame, whatever the
writer did since. -/
theorem old_frame_is_last_released {maxFrames : Nat} (hm : 2 ≤ maxFrames) {d : Nat → α}
    {r : Ring α} (h : Reachable maxFrames d r) (x : α) (r1 : Ring α)
    (hx : step r .take = .ok (r1, .frame (some x)))
    (ops : List (Op α)) (hops : ∀ op ∈ ops, op ≠ .take) :
    ∃ r2 outs, runOps step r1 ops = .ok (r2, outs) ∧ step r2 .old = .ok (r2, .frame (some x)) := by
  obtain ⟨t, ht, _⟩ := reachable_rel hm h
  obtain ⟨r1', hr1, hrel1⟩ := step_rel r t .take ht
  rw [hx] at hr1
  simp at hr1
  obtain ⟨rfl, ho⟩ := hr1
  have hlast : (t.step .take).1.last = x := by
    simp only [Spec.step] at ho ⊢
    split
    · rename_i hq; simp [hq] at ho
    · rename_i hq; simp [hq] at ho; exact ho.symm
  obtain ⟨r2, hr2, hrel2⟩ := runOps_refines step Spec.step (fun _ => True) Rel
    (fun s t op _ h => step_rel s t op h) ops _ _ (fun _ _ => trivial) hrel1
  refine ⟨r2, _, hr2, ?_⟩
  have key : ∀ (ops : List (Op α)) (t : Spec α), (∀ op ∈ ops, op ≠ .take) →
      (runSpec Spec.step t ops).1.last = t.last := by
    intro ops
    induction ops with
    | nil => intro t _; rfl
    | cons op ops ih =>
      intro t hu
      have hop := hu op (by simp)
      simp only [runSpec]
      rw [ih _ (fun o ho => hu o (List.mem_cons_of_mem _ ho))]
      cases op <;> simp at hop <;> simp only [Spec.step, Spec.makeRoom] <;> (try split) <;> rfl
  have h1 := hrel2.hmax
  simp only [step, Ring.forceGetFront]
  rw [if_neg (by omega)]
  simp only [Outcome.bind_ok, hrel2.hold, key _ _ hops, hlast]

example : ∃ r r1, Reachable 3 (fun _ => 0) r ∧ step r .take = .ok (r1, .frame (some 7)) :=
  ⟨_, _, ⟨[.put 7, .put 8], _, rfl⟩, rfl⟩

/-! ## C02 -/

/-- **C02.** In every reachable state a forced write succeeds, and what the reader will obtain
afterwards is what it would have obtained before, minus the newest frame if the queue was full,
plus the new frame; the loss counter rises by one exactly when a frame was discarded. -/
theorem forced_write_drops_only_newest {maxFrames : Nat} (hm : 2 ≤ maxFrames) {d : Nat → α}
    {r : Ring α} (h : Reachable maxFrames d r) (x : α) :
    ∃ r' q, step r (.forcePut x) = .ok (r', .done) ∧
      drain r = .ok (q.map fun y => .frame (some y)) ∧
      (q.length < min maxFrames 250 - 1 →
        drain r' = .ok ((q ++ [x]).map fun y => .frame (some y)) ∧ r'.lost = r.lost) ∧
      (q.length = min maxFrames 250 - 1 →
        drain r' = .ok ((q.dropLast ++ [x]).map fun y => .frame (some y)) ∧
        r'.lost = r.lost + 1) ∧
      q.length ≤ min maxFrames 250 - 1 := by
  obtain ⟨t, ht, hcap⟩ := reachable_rel hm h
  obtain ⟨r', hr', hrel⟩ := step_rel r t (.forcePut x) ht
  refine ⟨r', t.q, hr', drain_of_rel ht, ?_, ?_, ?_⟩
  · intro hlt
    have e : t.makeRoom = t := by unfold Spec.makeRoom; rw [if_pos (by omega)]
    rw [drain_of_rel hrel, hrel.hlost, ht.hlost]
    simp [Spec.step, e]
  · intro heq
    have e : t.makeRoom = { t with q := t.q.dropLast, lost := t.lost + 1 } := by
      unfold Spec.makeRoom; rw [if_neg (by omega)]
    rw [drain_of_rel hrel, hrel.hlost, ht.hlost]
    simp [Spec.step, e]
  · have := ht.hlen; have := ht.hcap; omega

/-- Overflowing a full queue of three buffers: the newest of `1, 2` is replaced by `3`. -/
example : ∃ r, runOps step (Ring.create 3 (fun _ => 0)) [.put 1, .put 2, .forcePut 3, .take, .take, .take]
    = .ok (r, [.done, .done, .done, .frame (some 1), .frame (some 3), .frame none]) ∧ r.lost = 1 :=
  ⟨_, rfl, rfl⟩

/-- **C02.** The loop of the forced request ends after at most one discarded frame, for every
iteration budget of at least two tests: the model's budget is not a restriction. -/
theorem forced_slot_terminates {maxFrames : Nat} (hm : 2 ≤ maxFrames) {d : Nat → α}
    {r : Ring α} (h : Reachable maxFrames d r) (fuel : Nat) (hf : 2 ≤ fuel) :
    ∃ r' i, r.forceGetRear fuel = .ok (r', i) ∧ r.forceGetRear 2 = .ok (r', i) ∧
      r'.lost ≤ r.lost + 1 := by
  obtain ⟨t, ht, _⟩ := reachable_rel hm h
  have hlost : t.makeRoom.lost ≤ t.lost + 1 := by
    unfold Spec.makeRoom; split <;> simp
  have h2 : r.forceGetRear fuel = r.forceGetRear 2 := by
    obtain ⟨f, rfl⟩ : ∃ f, fuel = f + 2 := ⟨fuel - 2, by omega⟩
    simp only [Ring.forceGetRear, ht.getRear_eq]
    by_cases hc : t.q.length < t.cap
    · simp [hc]
    · obtain ⟨r', hr', hrel, hroom, _⟩ := ht.flush hc
      simp only [hc, if_false, Outcome.bind_ok, hr', hrel.getRear_eq, hroom, if_true]
  obtain ⟨r', hr', hrel, _⟩ := ht.forceGetRear 2 (by omega)
  refine ⟨r', r'.rear, by rw [h2, hr'], hr', ?_⟩
  rw [hrel.hlost, ht.hlost]; exact hlost

example : Reachable 2 (fun _ => 0) (Ring.create 2 (fun _ => (0 : Nat))) := ⟨[], _, rfl⟩

/-- **C02 (counterexample).** On a queue created for one frame the forced request never returns:
whatever number of iterations is allowed, the loop is still running. -/
theorem forced_slot_hangs_with_capacity_one (d : Nat → α) (fuel : Nat) :
    (Ring.create 1 d).forceGetRear fuel = .hang := by
  have key : ∀ fuel (r : Ring α), r.max = 1 → r.rear = 0 → r.front = 0 →
      r.forceGetRear fuel = .hang := by
    intro fuel
    induction fuel with
    | zero => intros; rfl
    | succ n ih =>
      intro r h1 h2 h3
      simp [Ring.forceGetRear, Ring.getRear, Ring.flush, h1, h2, h3]
      exact ih _ rfl rfl rfl
  exact key fuel _ rfl rfl rfl

/-- **C01/C02 (counterexample).** A queue created for zero frames divides by zero at its first use. -/
theorem zero_capacity_is_undefined (d : Nat → α) (x : α) :
    step (Ring.create 0 d) (.put x) = .ub ∧ step (Ring.create 0 d) .old = .ub := ⟨rfl, rfl⟩

/-- **C01.** The "queue is nearly full" report is raised exactly when more than nine tenths of the
buffers are occupied; so a queue of ten buffers, which can hold nine frames, never reports it. -/
theorem nearly_full_report {maxFrames : Nat} (hm : 2 ≤ maxFrames) {d : Nat → α} {r : Ring α}
    (h : Reachable maxFrames d r) :
    (r.isFull = true ↔ 9 * min maxFrames 250 < 10 * r.getElements) ∧
    (maxFrames ≤ 10 → r.isFull = false) := by
  obtain ⟨t, ht, hcap⟩ := reachable_rel hm h
  have h1 := ht.hmax; have h2 := ht.hcap; have h3 := ht.hlen; have h4 := ht.getElements_eq
  unfold Ring.isFull
  constructor
  · simp; omega
  · intro hle
    simp only [Bool.and_eq_false_iff, decide_eq_false_iff_not]
    right; omega

example : Reachable 3 (fun _ => 0) (Ring.create 3 (fun _ => (0 : Nat))) := ⟨[], _, rfl⟩

/-! ## C04 -/

/-- Start: nobody holds a buffer. -/
def Users.create (maxFrames : Nat) (d : Nat → α) : Users α :=
  { ring := Ring.create maxFrames d, w := none, rd := none }

/-- Invariant behind C04. -/
structure UInv (s : Users α) : Prop where
  ex : ∃ t, Rel s.ring t ∧ (∀ i, s.w = some i → i = s.ring.rear ∧ t.q.length < t.cap) ∧
    (∀ i, s.rd = some (i, true) → i = s.ring.front ∧ t.q ≠ []) ∧
    (∀ i, s.rd = some (i, false) → i = (s.ring.front + (s.ring.max - 1)) % s.ring.max)

theorem UInv.noalias {s : Users α} (h : UInv s) (i j : Nat) (b : Bool) (hi : s.w = some i)
    (hj : s.rd = some (j, b)) : i ≠ j := by
  obtain ⟨t, ht, hw, h1, h2⟩ := h.ex
  obtain ⟨rfl, hlt⟩ := hw i hi
  have a1 := ht.hmax; have a2 := ht.hcap; have a3 := ht.hf; have a4 := ht.hlen; have a5 := ht.hr
  cases b with
  | true =>
    obtain ⟨rfl, hne⟩ := h1 j hj
    intro hcon
    exact hne (ht.empty_iff.1 hcon)
  | false =>
    have := h2 j hj
    intro hcon
    rw [mod_lt2 (by omega)] at a5 this
    grind

theorem ustep_inv {s : Users α} (h : UInv s) (op : UOp)
    (hop : op = .wGet true → 3 ≤ s.ring.max) :
    ∃ s', ustep s op = .ok s' ∧ UInv s' ∧ s'.ring.max = s.ring.max := by
  obtain ⟨t, ht, hw, h1, h2⟩ := h.ex
  have a1 := ht.hmax; have a2 := ht.hcap; have a3 := ht.hf; have a4 := ht.hlen; have a5 := ht.hr
  cases op with
  | wGet force =>
    cases force with
    | false =>
      refine ⟨{ s with w := if t.q.length < t.cap then some s.ring.rear else none }, ?_, ⟨t, ht, ?_, h1, h2⟩, rfl⟩
      · simp [ustep, ht.writerSlot_false]
      · intro i hi
        simp only at hi
        split at hi
        · simp at hi; exact ⟨hi.symm, ‹_›⟩
        · simp at hi
    | true =>
      have h3 := hop rfl
      obtain ⟨r', hr', hrel, hroom, hs, hf, hm⟩ := ht.writerSlot_true
      refine ⟨{ s with ring := r', w := some r'.rear }, ?_, ⟨t.makeRoom, hrel, ?_, ?_, ?_⟩, hm⟩
      · simp [ustep, hr']
      · intro i hi; simp at hi; exact ⟨hi.symm, hroom⟩
      · intro i hi
        obtain ⟨e1, e2⟩ := h1 i hi
        refine ⟨by rw [e1]; exact hf.symm, ?_⟩
        unfold Spec.makeRoom
        split
        · exact e2
        · intro hcon
          have := congrArg List.length hcon
          simp at this
          omega
      · intro i hi
        have := h2 i hi
        show i = (r'.front + (r'.max - 1)) % r'.max
        rw [hf, hm]; exact this
  | wCommit =>
    rcases hsw : s.w with _ | i
    · exact ⟨s, by simp [ustep, hsw], h, rfl⟩
    · obtain ⟨_, hlt⟩ := hw i hsw
      obtain ⟨r', hr', hrel⟩ := ht.put hlt (s.ring.slots s.ring.rear)
      have e : s.ring.write s.ring.rear (s.ring.slots s.ring.rear) = s.ring := by
        unfold Ring.write
        have : (fun j => if j = s.ring.rear then s.ring.slots s.ring.rear else s.ring.slots j)
            = s.ring.slots := by funext j; split <;> simp_all
        rw [this]
      rw [e] at hr'
      have hadd : r'.front = s.ring.front ∧ r'.max = s.ring.max := by
        unfold Ring.addFrame at hr'
        rw [if_neg (by omega)] at hr'
        split at hr' <;> (simp at hr'; subst hr'; exact ⟨rfl, rfl⟩)
      refine ⟨{ s with ring := r', w := none }, by simp [ustep, hsw, hr'], ⟨_, hrel, ?_, ?_, ?_⟩, hadd.2⟩
      · intro i hi; simp at hi
      · intro j hj
        obtain ⟨e1, _⟩ := h1 j hj
        exact ⟨by rw [e1]; exact hadd.1.symm, by simp⟩
      · intro j hj
        have := h2 j hj
        show j = (r'.front + (r'.max - 1)) % r'.max
        rw [hadd.1, hadd.2]; exact this
  | rGet =>
    have main : ∀ s0 : Users α, s0 = s → (∀ i, s.rd ≠ some (i, true)) →
        ∃ s', (match s0.ring.getFront with
          | some i => Outcome.ok { s0 with rd := some (i, true) }
          | none => s0.ring.forceGetFront.bind fun i => .ok { s0 with rd := some (i, false) }) = .ok s' ∧
          UInv s' ∧ s'.ring.max = s0.ring.max := by
      intro s0 hs0 _
      subst hs0
      rcases hq : t.q with _ | ⟨x, q⟩
      · have hg : s0.ring.getFront = none := by
          unfold Ring.getFront; rw [if_pos (ht.empty_iff.2 hq)]
        refine ⟨{ s0 with rd := some ((s0.ring.front + (s0.ring.max - 1)) % s0.ring.max, false) }, ?_,
          ⟨t, ht, hw, ?_, ?_⟩, rfl⟩
        · simp only [hg, Ring.forceGetFront]; rw [if_neg (by omega)]; rfl
        · intro i hi; simp at hi
        · intro i hi; simp at hi; exact hi.symm
      · obtain ⟨hg, _⟩ := ht.take x q hq
        refine ⟨{ s0 with rd := some (s0.ring.front, true) }, by simp only [hg], ⟨t, ht, hw, ?_, ?_⟩, rfl⟩
        · intro i hi; simp at hi; exact ⟨hi.symm, by rw [hq]; simp⟩
        · intro i hi; simp at hi
    rcases hrd : s.rd with _ | ⟨i, b⟩
    · obtain ⟨s', e, hi, hm⟩ := main s rfl (by simp [hrd])
      exact ⟨s', by simp only [ustep, hrd]; exact e, hi, hm⟩
    · cases b with
      | true => exact ⟨s, by simp [ustep, hrd], h, rfl⟩
      | false =>
        obtain ⟨s', e, hi, hm⟩ := main s rfl (by simp [hrd])
        exact ⟨s', by simp only [ustep, hrd]; exact e, hi, hm⟩
  | rRelease =>
    rcases hrd : s.rd with _ | ⟨i, b⟩
    · exact ⟨s, by simp [ustep, hrd], h, rfl⟩
    · cases b with
      | false => exact ⟨s, by simp [ustep, hrd], h, rfl⟩
      | true =>
        obtain ⟨_, hne⟩ := h1 i hrd
        rcases hq : t.q with _ | ⟨x, q⟩
        · exact absurd hq hne
        · obtain ⟨_, _, r', hr', _, hre, _, hrel⟩ := ht.take x q hq
          have hm : r'.max = s.ring.max := by
            have := hrel.hcap; simp only at this; omega
          refine ⟨{ s with ring := r', rd := none }, by simp [ustep, hrd, hr'], ⟨_, hrel, ?_, ?_, ?_⟩, hm⟩
          · intro i hi
            obtain ⟨e1, e2⟩ := hw i hi
            refine ⟨by rw [e1]; exact hre.symm, ?_⟩
            have : t.q.length = q.length + 1 := by rw [hq]; simp
            show q.length < t.cap
            omega
          · intro i hi; simp at hi
          · intro i hi; simp at hi

theorem urun_inv (ops : List UOp) : ∀ {s : Users α}, UInv s →
    (UOp.wGet true ∈ ops → 3 ≤ s.ring.max) → ∃ s', urun s ops = .ok s' ∧ UInv s' := by
  induction ops with
  | nil => intro s h _; exact ⟨s, rfl, h⟩
  | cons op ops ih =>
    intro s h hop
    obtain ⟨s', e, hi, hm⟩ := ustep_inv h op (fun he => hop (by simp [he]))
    obtain ⟨s'', e', hi'⟩ := ih hi (fun he => by rw [hm]; exact hop (by simp [he]))
    exact ⟨s'', by simp [urun, e, e'], hi'⟩

theorem create_uinv (maxFrames : Nat) (hm : 2 ≤ maxFrames) (d : Nat → α) :
    UInv (Users.create maxFrames d) :=
  ⟨_, create_rel maxFrames hm d, by simp [Users.create], by simp [Users.create],
    by simp [Users.create]⟩

/-- **C04.** For every history of requests, commits and releases, the buffer held by the writer is
different from the buffer held by the reader (current or last frame), provided no forced request is
made or the queue was created for at least three frames. -/
theorem written_slot_never_read_slot (maxFrames : Nat) (hm : 2 ≤ maxFrames) (d : Nat → α)
    (ops : List UOp) (hf : UOp.wGet true ∈ ops → 3 ≤ maxFrames) :
    ∃ s, urun (Users.create maxFrames d) ops = .ok s ∧
      ∀ i j b, s.w = some i → s.rd = some (j, b) → i ≠ j := by
  have hmax : (Users.create maxFrames d).ring.max = min maxFrames 250 := by
    show (if maxFrames > MAX_FRAMES then MAX_FRAMES else maxFrames) = _
    unfold MAX_FRAMES; split <;> omega
  obtain ⟨s, e, hi⟩ := urun_inv ops (create_uinv maxFrames hm d)
    (fun he => by rw [hmax]; have := hf he; omega)
  exact ⟨s, e, fun i j b hi' hj => hi.noalias i j b hi' hj⟩

/-- Both sides hold a buffer at the same time after a forced request on a full queue. -/
example : (urun (Users.create 3 (fun _ => 0)) [.wGet false, .wCommit, .wGet false, .wCommit, .rGet,
    .wGet true]).map (fun s => (s.w, s.rd)) = .ok (some 1, some (0, true)) := rfl

/-- **C04 (counterexample).** With a queue of two buffers a forced request hands the writer the
buffer the reader is using. -/
theorem forced_write_aliases_reader_with_two_buffers (d : Nat → α) :
    (urun (Users.create 2 d) [.wGet false, .wCommit, .rGet, .wGet true]).map
      (fun s => (s.w, s.rd)) = .ok (some 0, some (0, true)) := by
  simp [urun, ustep, Users.create, Ring.create, Ring.writerSlot, Ring.getRear, Ring.addFrame,
    Ring.getFront, Ring.forceGetRear, Ring.flush, MAX_FRAMES]

/-! ## C03 -/

/-- Invariant of the interleaving model for unforced writers: `q` is the list of committed frames
not yet released. -/
structure CInv (s : Conc α) (q : List α) : Prop where
  hmax : 2 ≤ s.max
  hsl : s.slots.length = s.max
  hf : s.front < s.max
  hlen : q.length < s.max
  hr : s.rear = (s.front + q.length) % s.max
  hq : ∀ i x, q[i]? = some x → s.slots[(s.front + i) % s.max]? = some (some x)
  hist : s.committed.map some = s.delivered ++ q.map some
  -- the writer never forces
  hwf : ∀ x, s.w ≠ .flushing x ∧ s.w ≠ .getRear x true
  -- once past the test in getRear there is room
  hroom : (∃ x, s.w = .slot x ∨ s.w = .torn x ∨ s.w = .filled x ∨ s.w = .store x) →
    q.length + 1 < s.max
  hfilled : ∀ x, s.w = .filled x ∨ s.w = .store x → s.slots[s.rear]? = some (some x)
  -- once past the test in getFront there is a frame
  hne : s.r ≠ .idle → q ≠ []
  hgot : ∀ v, s.r = .got v ∨ s.r = .store v → q.head?.map some = some v

theorem rear_ne {s : Conc α} {q : List α} (h : CInv s q) (hroom : q.length + 1 < s.max)
    (i : Nat) (hi : i < q.length) : (s.front + i) % s.max ≠ s.rear := by
  have h1 := h.hmax; have h3 := h.hf; have h4 := h.hlen
  rw [h.hr, mod_lt2 (by omega), mod_lt2 (by omega)]
  grind

theorem rear_lt {s : Conc α} {q : List α} (h : CInv s q) : s.rear < s.max := by
  rw [h.hr]; exact Nat.mod_lt _ (by have := h.hmax; omega)

theorem cfull_iff {s : Conc α} {q : List α} (h : CInv s q) :
    (s.rear + 1) % s.max = s.front ↔ q.length + 1 = s.max := by
  have h1 := h.hmax; have h3 := h.hf; have h4 := h.hlen; have h5 := h.hr
  have h6 := rear_lt h
  rw [mod_lt2 (by omega)] at h5
  rw [mod_lt2 (by omega)]
  grind

theorem cempty_iff {s : Conc α} {q : List α} (h : CInv s q) : s.rear = s.front ↔ q = [] := by
  have h1 := h.hmax; have h3 := h.hf; have h4 := h.hlen; have h5 := h.hr
  rw [mod_lt2 (by omega)] at h5
  rw [← List.length_eq_zero_iff]
  grind

theorem cstep_inv {s s' : Conc α} {q : List α} (h : CInv s q) (a : CAct α) (ha : Unforced a)
    (hs : cstep s a = some s') : ∃ q', CInv s' q' := by
  have h1 := h.hmax; have h2 := h.hsl; have h3 := h.hf; have h4 := h.hlen; have h5 := h.hr
  have h6 := rear_lt h
  cases a with
  | wBegin x f =>
    cases f with
    | true => exact absurd ha (by simp [Unforced])
    | false =>
      simp only [cstep] at hs
      split at hs <;> simp at hs
      subst hs
      exact ⟨q, h1, h2, h3, h4, h5, h.hq, h.hist, by simp, by simp, by simp, h.hne, h.hgot⟩
  | wAbandon =>
    simp only [cstep] at hs
    split at hs <;> simp at hs
    all_goals
      subst hs
      exact ⟨q, h1, h2, h3, h4, h5, h.hq, h.hist, by simp, by simp, by simp, h.hne, h.hgot⟩
  | w =>
    simp only [cstep] at hs
    split at hs
    · simp at hs
    · rename_i x f hw
      have hf : f = false := by
        cases f with
        | false => rfl
        | true => exact absurd hw (h.hwf x).2
      subst hf
      split at hs
      · simp at hs; subst hs
        exact ⟨q, h1, h2, h3, h4, h5, h.hq, h.hist, by simp, by simp, by simp, h.hne, h.hgot⟩
      · rename_i hnf
        simp at hs; subst hs
        refine ⟨q, h1, h2, h3, h4, h5, h.hq, h.hist, by simp, ?_, by simp, h.hne, h.hgot⟩
        intro _
        show q.length + 1 < s.max
        rw [cfull_iff h] at hnf
        omega
    · rename_i x hw
      exact absurd hw (h.hwf x).1
    · rename_i x hw
      have hroom := h.hroom ⟨x, .inl hw⟩
      simp at hs; subst hs
      refine ⟨q, h1, by simpa using h2, h3, h4, h5, ?_, h.hist, by simp, fun _ => hroom,
        by simp, h.hne, h.hgot⟩
      intro i y hy
      have hi : i < q.length := (List.getElem?_eq_some_iff.1 hy).1
      show (s.slots.set s.rear none)[(s.front + i) % s.max]? = _
      rw [List.getElem?_set_ne (rear_ne h hroom i hi).symm]
      exact h.hq i y hy
    · rename_i x hw
      have hroom := h.hroom ⟨x, .inr (.inl hw)⟩
      simp at hs; subst hs
      refine ⟨q, h1, by simpa using h2, h3, h4, h5, ?_, h.hist, by simp, fun _ => hroom,
        ?_, h.hne, h.hgot⟩
      · intro i y hy
        have hi : i < q.length := (List.getElem?_eq_some_iff.1 hy).1
        show (s.slots.set s.rear (some x))[(s.front + i) % s.max]? = _
        rw [List.getElem?_set_ne (rear_ne h hroom i hi).symm]
        exact h.hq i y hy
      · intro y hy
        simp at hy; subst hy
        show (s.slots.set s.rear (some x))[s.rear]? = _
        rw [List.getElem?_set_self (by omega)]
    · rename_i x hw
      have hroom := h.hroom ⟨x, .inr (.inr (.inl hw))⟩
      rw [if_neg (by rw [cfull_iff h]; omega)] at hs
      simp at hs; subst hs
      refine ⟨q, h1, h2, h3, h4, h5, h.hq, h.hist, by simp, fun _ => hroom, ?_, h.hne, h.hgot⟩
      intro y hy
      simp at hy; subst hy
      exact h.hfilled x (.inl hw)
    · rename_i x hw
      have hroom := h.hroom ⟨x, .inr (.inr (.inr hw))⟩
      have hx := h.hfilled x (.inr hw)
      simp at hs; subst hs
      refine ⟨q ++ [x], h1, h2, h3, by simpa using hroom, ?_, ?_, ?_, by simp, by simp, by simp,
        by intro _; simp, ?_⟩
      · show (s.rear + 1) % s.max = (s.front + (q ++ [x]).length) % s.max
        rw [h5]; simp [Nat.add_assoc]
      · intro i y hy
        show s.slots[(s.front + i) % s.max]? = _
        by_cases hi : i < q.length
        · rw [List.getElem?_append_left hi] at hy
          exact h.hq i y hy
        · rw [List.getElem?_append_right (by omega)] at hy
          have : i - q.length = 0 := by
            rcases List.getElem?_eq_some_iff.1 hy with ⟨hi', _⟩; simpa using hi'
          have hi' : i = q.length := by omega
          subst hi'
          simp at hy; subst hy
          rw [← h5]; exact hx
      · show (s.committed ++ [x]).map some = s.delivered ++ (q ++ [x]).map some
        simp [h.hist]
      · intro v hv
        have := h.hgot v hv
        cases q with
        | nil => simp at this
        | cons y q => simpa using this
  | r =>
    simp only [cstep] at hs
    split at hs
    · split at hs
      · simp at hs; subst hs; exact ⟨q, h⟩
      · rename_i hne
        simp at hs; subst hs
        refine ⟨q, h1, h2, h3, h4, h5, h.hq, h.hist, h.hwf, h.hroom, h.hfilled, ?_, by simp⟩
        intro _ hq
        exact hne ((cempty_iff h).2 hq)
    · rename_i hrp
      have hne := h.hne (by simp [hrp])
      simp at hs; subst hs
      refine ⟨q, h1, h2, h3, h4, h5, h.hq, h.hist, h.hwf, h.hroom, h.hfilled, fun _ => hne, ?_⟩
      intro v hv
      simp at hv; subst hv
      rcases hq : q with _ | ⟨y, q'⟩
      · exact absurd hq hne
      · have := h.hq 0 y (by rw [hq]; rfl)
        rw [Nat.add_zero, Nat.mod_eq_of_lt h3] at this
        simp [this]
    · rename_i v hrp
      have hne := h.hne (by simp [hrp])
      rw [if_neg (by rw [cempty_iff h]; exact hne)] at hs
      simp at hs; subst hs
      refine ⟨q, h1, h2, h3, h4, h5, h.hq, h.hist, h.hwf, h.hroom, h.hfilled, fun _ => hne, ?_⟩
      intro v' hv
      simp at hv; subst hv
      exact h.hgot v (.inl hrp)
    · rename_i v hrp
      have hne := h.hne (by simp [hrp])
      have hg := h.hgot v (.inr hrp)
      simp at hs; subst hs
      rcases hq : q with _ | ⟨y, q'⟩
      · exact absurd hq hne
      · rw [hq] at hg
        simp at hg
        have hlen : q.length = q'.length + 1 := by rw [hq]; simp
        refine ⟨q', h1, h2, Nat.mod_lt _ (by show 0 < s.max; omega), by show q'.length < s.max; omega,
          ?_, ?_, ?_, h.hwf, ?_, h.hfilled, by simp, by simp⟩
        · show s.rear = ((s.front + 1) % s.max + q'.length) % s.max
          rw [h5, hlen, Nat.mod_add_mod]; congr 1; omega
        · intro i z hz
          show s.slots[((s.front + 1) % s.max + i) % s.max]? = _
          rw [Nat.mod_add_mod]
          have := h.hq (i + 1) z (by rw [hq]; simpa using hz)
          rw [← this]; congr 2; omega
        · show s.committed.map some = (s.delivered ++ [v]) ++ q'.map some
          rw [h.hist, hq, ← hg]; simp
        · intro hex
          have := h.hroom hex
          show q'.length + 1 < s.max
          omega

/-- **C03.** One producer thread and one consumer thread, all interleavings of their index loads,
index stores and (non-atomic) buffer accesses, no forcing: what the consumer obtained is exactly
an initial part of what the producer committed, in order, and never a half-written buffer. -/
theorem lock_free_producer_consumer (max : Nat) (hm : 2 ≤ max) (d : α) (sched : List (CAct α))
    (hu : ∀ a ∈ sched, Unforced a) (s : Conc α) (hs : crun (Conc.init max d) sched = some s) :
    ∃ rest : List α, s.committed.map some = s.delivered ++ rest.map some ∧ rest.length ≤ max - 1 := by
  have key : ∀ (sched : List (CAct α)) (s0 s : Conc α) (q : List α), CInv s0 q →
      (∀ a ∈ sched, Unforced a) → crun s0 sched = some s →
      (∃ q, CInv s q) ∧ s.max = s0.max := by
    intro sched
    induction sched with
    | nil => intro s0 s q h _ hs; simp [crun] at hs; subst hs; exact ⟨⟨q, h⟩, rfl⟩
    | cons a as ih =>
      intro s0 s q h hu hs
      simp only [crun] at hs
      rcases hc : cstep s0 a with _ | s1
      · simp [hc] at hs
      · rw [hc] at hs
        obtain ⟨q1, h1⟩ := cstep_inv h a (hu a (by simp)) hc
        have hm1 : s1.max = s0.max := by
          cases a <;> simp only [cstep] at hc <;> (split at hc) <;> (try split at hc) <;>
            simp at hc <;> subst hc <;> rfl
        obtain ⟨h2, h3⟩ := ih s1 s q1 h1 (fun b hb => hu b (by simp [hb])) hs
        exact ⟨h2, by rw [h3, hm1]⟩
  have hinit : CInv (Conc.init max d) [] :=
    ⟨hm, by simp [Conc.init], by simp [Conc.init]; omega, by simp [Conc.init]; omega,
      by simp [Conc.init], by simp, by simp [Conc.init], by simp [Conc.init],
      by simp [Conc.init], by simp [Conc.init], by simp [Conc.init], by simp [Conc.init]⟩
  obtain ⟨⟨q, hq⟩, hmax⟩ := key sched _ s [] hinit hu hs
  refine ⟨q, hq.hist, ?_⟩
  have := hq.hlen
  have e : (Conc.init max d).max = max := rfl
  omega

/-- A schedule in which both threads are in the middle of their calls at the same time. -/
example : (crun (Conc.init 3 0) [.wBegin 7 false, .w, .w, .w, .w, .w, .wBegin 8 false, .w, .r, .w,
    .r, .w, .r, .w, .r, .w]).map (fun s => (s.committed, s.delivered)) = some ([7, 8], [some 7]) := by
  decide

/-- **C03 (counterexample).** With forcing, the consumer can be handed a buffer that was never
committed: the producer sees the queue full, the consumer empties it, the producer then discards
"the newest frame" of an empty queue, and the consumer believes there are frames. -/
theorem forced_producer_breaks_consumer :
    ∃ sched : List (CAct Nat), ∃ s, crun (Conc.init 3 0) sched = some s ∧
      s.committed = [1, 2] ∧ s.delivered = [some 1, some 2, some 0] :=
  ⟨[.wBegin 1 true, .w, .w, .w, .w, .w, .wBegin 2 true, .w, .w, .w, .w, .w,
    .wBegin 3 true, .w,
    .r, .r, .r, .r, .r, .r, .r, .r,
    .w,
    .r, .r, .r, .r], _, rfl, by decide, by decide⟩

/-- **C01/C02 (counterexample).** A queue created for one frame has room for none: nothing put into it ever arrives. -/
theorem capacity_one_holds_nothing (d : Nat → α) (x : α) : ∃ r, step (Ring.create 1 d) (.put x) = .ok (r, .refused) ∧
    r.getElements = 0 ∧ r.getFront = none ∧ r.max = 1 :=
  ⟨Ring.create 1 d, by simp [step, Ring.writerSlot, Ring.getRear, Ring.create, MAX_FRAMES], rfl, rfl, by simp [Ring.create, MAX_FRAMES]⟩

end Lms.FrameQueue
