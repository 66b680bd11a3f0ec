import Verif.SeqNum.Model
import Verif.FrameQueue.Props

/-!
# C17: sequence numbers identify source frames end to end
-/

namespace Lms.SeqNum

/-- The numbers entering the queue of writer `w`. -/
def ofWriter (w : Int) (xs : List (Int × Nat)) : List Nat := (xs.filter fun x => x.1 = w).map (·.2)

theorem ofWriter_append (w : Int) (a b : List (Int × Nat)) :
    ofWriter w (a ++ b) = ofWriter w a ++ ofWriter w b := by simp [ofWriter]

/-- Consecutive 64-bit numbers. -/
def consecutive (start n : Nat) : List Nat := (List.range n).map fun i => (start + i) % 2 ^ 64

theorem consecutive_append (start m n : Nat) :
    consecutive start (m + n) = consecutive start m ++ consecutive ((start + m) % 2 ^ 64) n := by
  simp only [consecutive, List.range_add, List.map_append, List.map_map]
  congr 1
  apply List.map_congr_left
  intro i _
  simp only [Function.comp]
  rw [Nat.mod_add_mod]
  congr 1
  omega

/-- The operation leaves the writer in place, and marks no frame when it fails. -/
def Keeps (w : Int) : Op → Prop
  | .setWriter v => v ≠ w
  | .deleteWriter v => v ≠ w
  | .round ok ds => ok = false → ∀ d ∈ ds, d.marked = false

/-- How many frames for the writer the operations marked. -/
def produced (w : Int) : List Op → Nat
  | [] => 0
  | .round _ ds :: ops => (ds.filter fun d => d.marked && decide (d.w = w)).length + produced w ops
  | _ :: ops => produced w ops

theorem headNumbers_of (w : Int) (ds : List DF) : ∀ (f : Seqs) (v : Nat), f w = some v → v < 2 ^ 64 →
    let n := (ds.filter fun d => d.marked && decide (d.w = w)).length
    (headNumbers f ds).1 w = some ((v + n) % 2 ^ 64) ∧
    ofWriter w (addFrames (headNumbers f ds).2) = consecutive v n := by
  induction ds with
  | nil => intro f v h hv; simp [headNumbers, addFrames, ofWriter, consecutive, h, Nat.mod_eq_of_lt hv]
  | cons d ds ih =>
    intro f v h hv
    simp only [headNumbers]
    cases hm : d.marked with
    | false =>
      obtain ⟨i1, i2⟩ := ih f v h hv
      simp only [Bool.false_eq_true, if_false, List.filter_cons, hm, Bool.false_and]
      refine ⟨i1, ?_⟩
      have : addFrames ((d, d.stale) :: (headNumbers f ds).2) = addFrames (headNumbers f ds).2 := by
        simp [addFrames, hm]
      rw [this]; exact i2
    | true =>
      by_cases hw : d.w = w
      · have hb : bump f d.w = (set f w (some ((v + 1) % 2 ^ 64)), v) := by simp [bump, hw, h]
        obtain ⟨i1, i2⟩ := ih (set f w (some ((v + 1) % 2 ^ 64))) ((v + 1) % 2 ^ 64) (by simp [set])
          (Nat.mod_lt _ (by decide))
        simp only [if_true, List.filter_cons, hm, Bool.true_and, hw, decide_true, List.length_cons]
        rw [show bump f w = (set f w (some ((v + 1) % 2 ^ 64)), v) from hw ▸ hb]
        constructor
        · rw [i1, Nat.mod_add_mod]
          congr 2
          omega
        · have : addFrames ((d, v) :: (headNumbers (set f w (some ((v + 1) % 2 ^ 64))) ds).2) =
              (w, v) :: addFrames (headNumbers (set f w (some ((v + 1) % 2 ^ 64))) ds).2 := by
            simp [addFrames, hm, hw]
          rw [this]
          have h1 : consecutive v ((ds.filter fun d => d.marked && decide (d.w = w)).length + 1) =
              v :: consecutive ((v + 1) % 2 ^ 64) ((ds.filter fun d => d.marked && decide (d.w = w)).length) := by
            rw [Nat.add_comm, consecutive_append]
            simp [consecutive, Nat.mod_eq_of_lt hv]
          rw [h1, ← i2]
          simp [ofWriter]
      · obtain ⟨i1, i2⟩ := ih (bump f d.w).1 v (by
          simp only [bump, set]; rw [if_neg (fun x => hw x.symm)]; exact h) hv
        simp only [if_true, List.filter_cons, hm, Bool.true_and, hw, decide_false, Bool.false_eq_true, if_false]
        refine ⟨i1, ?_⟩
        have : addFrames ((d, (bump f d.w).2) :: (headNumbers (bump f d.w).1 ds).2) =
            (d.w, (bump f d.w).2) :: addFrames (headNumbers (bump f d.w).1 ds).2 := by
          simp [addFrames, hm]
        rw [this]
        have h2 : ofWriter w ((d.w, (bump f d.w).2) :: addFrames (headNumbers (bump f d.w).1 ds).2) =
            ofWriter w (addFrames (headNumbers (bump f d.w).1 ds).2) := by
          simp [ofWriter, hw]
        rw [h2]; exact i2

/-- **C17 (source filters).**  From the moment a writer is set up and as long as it is not removed, the
frames a source filter produces for it enter its queue with the numbers 0, 1, 2, ... without gap,
whatever else happens to the filter (failed rounds, other writers). -/
theorem head_numbers_consecutive (f : Seqs) (w : Int) (ops : List Op) (hk : ∀ op ∈ ops, Keeps w op) :
    ofWriter w (runSpec headStep (setWriter f w) ops).2.flatten = consecutive 0 (produced w ops) := by
  have main : ∀ (ops : List Op) (f : Seqs) (v : Nat), f w = some v → v < 2 ^ 64 →
      (∀ op ∈ ops, Keeps w op) →
      ofWriter w (runSpec headStep f ops).2.flatten = consecutive v (produced w ops) := by
    intro ops
    induction ops with
    | nil => intro f v _ _ _; simp [runSpec, ofWriter, produced, consecutive]
    | cons op ops ih =>
      intro f v h hv hk
      have hk' : ∀ o ∈ ops, Keeps w o := fun o ho => hk o (List.mem_cons_of_mem _ ho)
      have hop := hk op (by simp)
      cases op with
      | setWriter x =>
        have hx : x ≠ w := hop
        simp only [runSpec, headStep, List.flatten_cons, List.nil_append, produced]
        exact ih _ v (by simp only [setWriter, set]; rw [if_neg (fun e => hx e.symm)]; exact h) hv hk'
      | deleteWriter x =>
        have hx : x ≠ w := hop
        simp only [runSpec, headStep, List.flatten_cons, List.nil_append, produced]
        exact ih _ v (by simp only [deleteWriter, set]; rw [if_neg (fun e => hx e.symm)]; exact h) hv hk'
      | round ok ds =>
        simp only [runSpec, headStep, List.flatten_cons, produced, ofWriter_append]
        cases ok with
        | false =>
          have hno : ∀ d ∈ ds, d.marked = false := hop rfl
          have e1 : addFrames (headRound f false ds).2 = [] := by
            simp only [headRound, addFrames, Bool.not_false, if_true, List.map_eq_nil_iff, List.filter_eq_nil_iff,
              List.mem_map]
            rintro x ⟨d, hd, rfl⟩
            simp [hno d hd]
          have e2 : (ds.filter fun d => d.marked && decide (d.w = w)) = [] := by
            rw [List.filter_eq_nil_iff]; intro d hd; simp [hno d hd]
          rw [e1, e2]
          simp only [List.length_nil, Nat.zero_add]
          have : (headRound f false ds).1 = f := by simp [headRound]
          rw [this]
          simp only [ofWriter, List.filter_nil, List.map_nil, List.nil_append]
          exact ih f v h hv hk'
        | true =>
          obtain ⟨i1, i2⟩ := headNumbers_of w ds f v h hv
          have : headRound f true ds = headNumbers f ds := by simp [headRound]
          rw [this, i2, consecutive_append]
          rw [ih _ _ i1 (Nat.mod_lt _ (by decide)) hk']
  exact main ops (setWriter f w) 0 (by simp [setWriter, set]) (by decide) hk

/-- A many-to-one filter's rounds: exactly one destination frame, of writer `w`, marked when the round
succeeds and only then. -/
def Single (w : Int) : Op → Prop
  | .setWriter _ => False
  | .deleteWriter _ => False
  | .round ok ds => ∃ d, ds = [d] ∧ d.w = w ∧ d.marked = ok

/-- How many rounds succeeded. -/
def successes : List Op → Nat
  | [] => 0
  | .round ok _ :: ops => (if ok then 1 else 0) + successes ops
  | _ :: ops => successes ops

/-- **C17 (many-to-one filters).**  The outputs of a many-to-one filter that marks its output exactly
when it succeeds are numbered 0, 1, 2, ... without gap. -/
theorem many_to_one_numbers_consecutive (f : Seqs) (w : Int) (ops : List Op) (hk : ∀ op ∈ ops, Single w op) :
    ∃ f' outs, runOps manyStep (setWriter f w) ops = .ok (f', outs) ∧
      ofWriter w outs.flatten = consecutive 0 (successes ops) := by
  have main : ∀ (ops : List Op) (f : Seqs) (v : Nat), f w = some v → v < 2 ^ 64 →
      (∀ op ∈ ops, Single w op) →
      ∃ f' outs, runOps manyStep f ops = .ok (f', outs) ∧
        ofWriter w outs.flatten = consecutive v (successes ops) := by
    intro ops
    induction ops with
    | nil => intro f v _ _ _; exact ⟨f, [], rfl, by simp [ofWriter, successes, consecutive]⟩
    | cons op ops ih =>
      intro f v h hv hk
      have hk' : ∀ o ∈ ops, Single w o := fun o ho => hk o (List.mem_cons_of_mem _ ho)
      have hop := hk op (by simp)
      cases op with
      | setWriter x => exact absurd hop (by simp [Single])
      | deleteWriter x => exact absurd hop (by simp [Single])
      | round ok ds =>
        obtain ⟨d, rfl, hdw, hdm⟩ := hop
        cases ok with
        | false =>
          obtain ⟨f', outs, e, hn⟩ := ih f v h hv hk'
          refine ⟨f', [] :: outs, ?_, ?_⟩
          · simp [runOps, manyStep, manyToOneRound, addFrames, hdm, e]
          · simpa [successes] using hn
        | true =>
          obtain ⟨f', outs, e, hn⟩ := ih (set f w (some ((v + 1) % 2 ^ 64))) ((v + 1) % 2 ^ 64) (by simp [set])
            (Nat.mod_lt _ (by decide)) hk'
          refine ⟨f', [(w, v)] :: outs, ?_, ?_⟩
          · have hb : bump f d.w = (set f w (some ((v + 1) % 2 ^ 64)), v) := by simp [bump, hdw, h]
            simp only [runOps, manyStep, manyToOneRound, hb, Bool.not_true, Bool.false_eq_true, if_false,
              Outcome.bind_ok, e]
            simp [addFrames, hdm, hdw]
          · simp only [List.flatten_cons, ofWriter_append, hn, successes, if_true]
            rw [consecutive_append]
            simp [ofWriter, consecutive, Nat.mod_eq_of_lt hv]
  exact main ops (setWriter f w) 0 (by simp [setWriter, set]) (by decide) hk

/-- **C17 (one-to-many filters).**  After a successful round every output that enters a queue carries
the number of the input. -/
theorem one_to_many_copies_number (n : Nat) (ds : List DF) :
    addFrames (oneToManyRound true n ds) = (ds.filter (·.marked)).map fun d => (d.w, n) := by
  induction ds with
  | nil => rfl
  | cons d ds ih =>
    simp only [oneToManyRound, Bool.not_true, Bool.false_eq_true, if_false, addFrames, List.map_cons,
      List.filter_cons] at ih ⊢
    cases d.marked <;> simp [ih]

/-- **C17 (recorded exception).**  A frame marked in a round that then reports failure still enters its
queue, with whatever number an earlier use left in the buffer; the counter does not advance. -/
theorem failed_round_enqueues_stale_number :
    addFrames (headRound (setWriter (fun _ => none) 1) false [⟨1, true, 77⟩]).2 = [(1, 77)] ∧
    addFrames (oneToManyRound false 5 [⟨1, true, 77⟩]) = [(1, 77)] := by
  decide

/-! ## At the consumer -/

open FrameQueue in
/-- The frames entering a queue, in order. -/
def entered {α : Type} : List (FrameQueue.Op α × Out α) → List α
  | [] => []
  | (.put x, .done) :: h => x :: entered h
  | (.forcePut x, .done) :: h => x :: entered h
  | _ :: h => entered h

open FrameQueue in
theorem queue_sublist {α : Type} (ops : List (FrameQueue.Op α)) : ∀ t : Spec α,
    let r := runSpec Spec.step t ops
    (delivered (ops.zip r.2) ++ r.1.q).Sublist (t.q ++ entered (ops.zip r.2)) ∧
    (t.q ++ entered (ops.zip r.2)).length + t.lost = (delivered (ops.zip r.2) ++ r.1.q).length + r.1.lost ∨
    (runSpec Spec.step t ops).1.cap = 0 := by
  intro t
  by_cases hcap0 : (runSpec Spec.step t ops).1.cap = 0
  · exact Or.inr hcap0
  left
  have hc : t.cap ≠ 0 := by
    have hcap : ∀ (ops : List (FrameQueue.Op α)) (t : Spec α), (runSpec Spec.step t ops).1.cap = t.cap := by
      intro ops
      induction ops with
      | nil => intro t; rfl
      | cons op ops ih =>
        intro t
        simp only [runSpec]
        rw [ih]
        cases op <;> simp only [Spec.step, Spec.makeRoom] <;> (try split) <;> rfl
    rw [hcap] at hcap0; exact hcap0
  clear hcap0
  induction ops generalizing t with
  | nil => simp [runSpec, delivered, entered]
  | cons op ops ih =>
    have hroom : (t.makeRoom.q ++ entered (ops.zip (runSpec Spec.step t.makeRoom ops).2)).Sublist
          (t.q ++ entered (ops.zip (runSpec Spec.step t.makeRoom ops).2)) ∧
        t.makeRoom.q.length + t.makeRoom.lost = t.q.length + t.lost ∧ t.makeRoom.cap ≠ 0 := by
      simp only [Spec.makeRoom]
      split
      · exact ⟨List.Sublist.refl _, rfl, hc⟩
      · rename_i hl
        refine ⟨List.Sublist.append (List.dropLast_sublist _) (List.Sublist.refl _), ?_, hc⟩
        simp only [List.length_dropLast]; omega
    cases op with
    | fill x =>
      simp only [runSpec, Spec.step, List.zip_cons_cons, entered, delivered]
      exact ih t hc
    | put x =>
      simp only [runSpec, Spec.step]
      split
      · have := ih { t with q := t.q ++ [x] } hc
        simp only [List.zip_cons_cons, entered, delivered]
        simpa using this
      · simp only [List.zip_cons_cons, entered, delivered]
        exact ih t hc
    | forceFill x =>
      simp only [runSpec, Spec.step, List.zip_cons_cons, entered, delivered]
      obtain ⟨i1, i2⟩ := ih t.makeRoom hroom.2.2
      refine ⟨i1.trans hroom.1, ?_⟩
      have := hroom.2.1
      simp only [List.length_append] at i2 ⊢
      omega
    | forcePut x =>
      simp only [runSpec, Spec.step, List.zip_cons_cons, entered, delivered]
      obtain ⟨i1, i2⟩ := ih { t.makeRoom with q := t.makeRoom.q ++ [x] } hroom.2.2
      refine ⟨i1.trans ?_, ?_⟩
      · rw [List.append_assoc]
        refine List.Sublist.append ?_ (List.Sublist.refl _)
        simp only [Spec.makeRoom]
        split
        · exact List.Sublist.refl _
        · exact List.dropLast_sublist _
      · have := hroom.2.1
        simp only [List.length_append, List.length_cons, List.length_nil] at i2 ⊢
        omega
    | peek =>
      simp only [runSpec, Spec.step, List.zip_cons_cons, entered, delivered]
      exact ih t hc
    | take =>
      simp only [runSpec, Spec.step]
      split
      · simp only [List.zip_cons_cons, entered, delivered]
        exact ih t hc
      · rename_i x q hq
        obtain ⟨i1, i2⟩ := ih { t with q := q, last := x } hc
        simp only [List.zip_cons_cons, entered, delivered, hq, List.cons_append]
        refine ⟨i1.cons_cons x, ?_⟩
        simp only [List.length_cons] at i2 ⊢
        omega
    | old =>
      simp only [runSpec, Spec.step, List.zip_cons_cons, entered, delivered]
      exact ih t hc
    | count =>
      simp only [runSpec, Spec.step, List.zip_cons_cons, entered, delivered]
      exact ih t hc

open FrameQueue in
/-- **C17 (at the consumer).**  If the frames entering a queue of at least two buffers are numbered
0, 1, 2, ..., then over any history of forced and unforced writes and reads the numbers delivered are
strictly increasing, what is delivered and still queued are numbers that entered, and the numbers missing
are exactly as many as the queue's count of lost frames. -/
theorem consumer_sees_increasing_numbers (maxFrames : Nat) (hm : 2 ≤ maxFrames) (d : Nat → Nat)
    (ops : List (FrameQueue.Op Nat)) :
    ∃ r outs rest, runOps step (Ring.create maxFrames d) ops = .ok (r, outs) ∧
      (entered (ops.zip outs) = List.range (entered (ops.zip outs)).length →
        (delivered (ops.zip outs) ++ rest).Pairwise (· < ·) ∧
        (∀ n ∈ delivered (ops.zip outs) ++ rest, n < (entered (ops.zip outs)).length) ∧
        r.getElements = rest.length ∧
        r.lost = (entered (ops.zip outs)).length - (delivered (ops.zip outs) ++ rest).length) := by
  obtain ⟨r, hr, hrel⟩ := runOps_refines step Spec.step (fun _ => True) Rel
    (fun s t op _ h => step_rel s t op h) ops _ _ (fun _ _ => trivial) (create_rel maxFrames hm d)
  refine ⟨r, _, (runSpec Spec.step (Spec.init maxFrames d) ops).1.q, hr, ?_⟩
  intro he
  have hq := queue_sublist ops (Spec.init maxFrames d)
  have hcap : (runSpec Spec.step (Spec.init maxFrames d) ops).1.cap ≠ 0 := by
    have h1 := hrel.hcap; have h2 := hrel.hmax; omega
  rcases hq with ⟨h1, h2⟩ | h
  · have hinit : (Spec.init maxFrames d).q = [] := rfl
    have hlost : (Spec.init maxFrames d).lost = 0 := rfl
    rw [hinit, List.nil_append] at h1 h2
    rw [he] at h1
    refine ⟨List.Pairwise.sublist h1 List.pairwise_lt_range, ?_, hrel.getElements_eq, ?_⟩
    · intro n hn
      exact List.mem_range.1 (h1.subset hn)
    · rw [hrel.hlost]; omega
  · exact absurd h hcap

/-! ## Non-triviality -/

example : ofWriter 1 (runSpec headStep (setWriter (fun _ => none) 1)
    [.round true [⟨1, true, 9⟩, ⟨2, true, 9⟩], .round false [⟨1, false, 9⟩], .round true [⟨1, false, 9⟩],
     .round true [⟨1, true, 9⟩]]).2.flatten = [0, 1] := by decide

example : ∀ op ∈ [Op.round true [⟨1, true, 9⟩, ⟨2, true, 9⟩], .round false [⟨1, false, 9⟩], .setWriter 2], Keeps 1 op := by
  intro op h
  simp only [List.mem_cons, List.not_mem_nil, or_false] at h
  rcases h with rfl | rfl | rfl <;> simp [Keeps]

example : ∀ op ∈ [Op.round true [⟨1, true, 9⟩], .round false [⟨1, false, 9⟩], .round true [⟨1, true, 4⟩]], Single 1 op := by
  intro op h
  simp only [List.mem_cons, List.not_mem_nil, or_false] at h
  rcases h with rfl | rfl | rfl <;> exact ⟨_, rfl, rfl, rfl⟩

example : addFrames (oneToManyRound true 5 [⟨1, true, 77⟩, ⟨2, false, 3⟩, ⟨3, true, 0⟩]) = [(1, 5), (3, 5)] := by decide

/-- A queue of three buffers: five frames enter, two are dropped, the reader sees 0 and 4. -/
example : ∃ r, runOps FrameQueue.step (FrameQueue.Ring.create 3 (fun _ => 0))
      [.forcePut 0, .forcePut 1, .forcePut 2, .forcePut 3, .forcePut 4, .take, .take, .take] =
    .ok (r, [.done, .done, .done, .done, .done, .frame (some 0), .frame (some 4), .frame none]) := by
  obtain ⟨r, hr⟩ := FrameQueue.queue_refines_bounded_fifo 3 (by omega) (fun _ => 0)
    [.forcePut 0, .forcePut 1, .forcePut 2, .forcePut 3, .forcePut 4, .take, .take, .take]
  exact ⟨r, hr⟩

end Lms.SeqNum
