import Verif.FrameQueue.Spec

/-! Helper lemmas for the frame queue: modular index arithmetic and the simulation relation. -/

namespace Lms.FrameQueue

theorem mod_lt2 {a m : Nat} (h : a < 2 * m) : a % m = if a < m then a else a - m := by
  split
  · exact Nat.mod_eq_of_lt ‹_›
  · rw [Nat.mod_eq_sub_mod (by omega), Nat.mod_eq_of_lt (by omega)]

variable {α : Type}

structure Rel (r : Ring α) (t : Spec α) : Prop where
  hmax : 2 ≤ r.max
  hcap : t.cap + 1 = r.max
  hf : r.front < r.max
  hlen : t.q.length < r.max
  hr : r.rear = (r.front + t.q.length) % r.max
  hq : ∀ i x, t.q[i]? = some x → r.slots ((r.front + i) % r.max) = x
  hold : r.slots ((r.front + (r.max - 1)) % r.max) = t.last
  hlost : r.lost = t.lost

theorem Rel.rear_lt {r : Ring α} {t : Spec α} (h : Rel r t) : r.rear < r.max := by
  rw [h.hr]; exact Nat.mod_lt _ (by have := h.hmax; omega)

theorem Rel.full_iff {r : Ring α} {t : Spec α} (h : Rel r t) :
    (r.rear + 1) % r.max = r.front ↔ ¬ t.q.length < t.cap := by
  have h1 := h.hmax; have h2 := h.hcap; have h3 := h.hf; have h4 := h.hlen; have h5 := h.hr
  have h6 := h.rear_lt
  rw [mod_lt2 (by omega)] at h5
  rw [mod_lt2 (by omega)]
  grind

theorem Rel.empty_iff {r : Ring α} {t : Spec α} (h : Rel r t) :
    r.rear = r.front ↔ t.q = [] := by
  have h1 := h.hmax; have h3 := h.hf; have h4 := h.hlen; have h5 := h.hr
  rw [mod_lt2 (by omega)] at h5
  rw [← List.length_eq_zero_iff]
  grind

theorem Rel.getRear_eq {r : Ring α} {t : Spec α} (h : Rel r t) :
    r.getRear = .ok (if t.q.length < t.cap then some r.rear else none) := by
  have h1 := h.hmax
  unfold Ring.getRear
  rw [if_neg (by omega)]
  by_cases hc : t.q.length < t.cap
  · rw [if_neg (by rw [h.full_iff]; simpa using hc), if_pos hc]
  · rw [if_pos (h.full_iff.2 hc), if_neg hc]

/-- Writing into the rear slot of a non-full queue does not disturb anything visible. -/
theorem Rel.write {r : Ring α} {t : Spec α} (h : Rel r t) (hc : t.q.length < t.cap) (x : α) :
    Rel (r.write r.rear x) t := by
  have h1 := h.hmax; have h2 := h.hcap; have h3 := h.hf; have h4 := h.hlen; have h5 := h.hr
  refine ⟨h1, h2, h3, h4, h5, ?_, ?_, h.hlost⟩
  · intro i y hy
    have hi : i < t.q.length := by
      rcases List.getElem?_eq_some_iff.1 hy with ⟨hi, _⟩; exact hi
    simp only [Ring.write]
    rw [if_neg, h.hq i y hy]
    rw [h5, mod_lt2 (by omega), mod_lt2 (by omega)]
    grind
  · simp only [Ring.write]
    rw [if_neg, h.hold]
    rw [h5, mod_lt2 (by omega), mod_lt2 (by omega)]
    grind

theorem Rel.put {r : Ring α} {t : Spec α} (h : Rel r t) (hc : t.q.length < t.cap) (x : α) :
    ∃ r', (r.write r.rear x).addFrame = .ok r' ∧ Rel r' { t with q := t.q ++ [x] } := by
  have hw := h.write hc x
  have h1 := h.hmax; have h2 := h.hcap; have h3 := h.hf; have h4 := h.hlen; have h5 := h.hr
  have h6 := h.rear_lt
  refine ⟨{ r.write r.rear x with rear := (r.rear + 1) % r.max }, ?_, ?_⟩
  · unfold Ring.addFrame
    have e1 : (r.write r.rear x).max = r.max := rfl
    have e2 : (r.write r.rear x).rear = r.rear := rfl
    have e3 : (r.write r.rear x).front = r.front := rfl
    rw [e1, e2, e3, if_neg (by omega), if_neg (by rw [h.full_iff]; simpa using hc)]
    rfl
  · refine ⟨h1, h2, h3, ?_, ?_, ?_, hw.hold, hw.hlost⟩
    · simp; show _ < r.max; omega
    · show (r.rear + 1) % r.max = (r.front + (t.q ++ [x]).length) % r.max
      rw [h5]; simp [Nat.add_assoc]
    · intro i y hy
      show (r.write r.rear x).slots ((r.front + i) % r.max) = y
      by_cases hi : i < t.q.length
      · rw [List.getElem?_append_left hi] at hy
        exact hw.hq i y hy
      · rw [List.getElem?_append_right (by omega)] at hy
        have : i - t.q.length = 0 := by
          rcases List.getElem?_eq_some_iff.1 hy with ⟨hi', _⟩; simpa using hi'
        have hi' : i = t.q.length := by omega
        subst hi'
        simp at hy
        subst hy
        simp only [Ring.write, ← h5, if_true]

theorem Rel.flush {r : Ring α} {t : Spec α} (h : Rel r t) (hc : ¬ t.q.length < t.cap) :
    ∃ r', r.flush = .ok r' ∧ Rel r' t.makeRoom ∧ t.makeRoom.q.length < t.makeRoom.cap ∧
      r'.slots = r.slots ∧ r'.front = r.front ∧ r'.max = r.max := by
  have h1 := h.hmax; have h2 := h.hcap; have h3 := h.hf; have h4 := h.hlen; have h5 := h.hr
  have h6 := h.rear_lt
  refine ⟨{ r with rear := (r.rear + (r.max - 1)) % r.max, lost := r.lost + 1 }, ?_, ?_, ?_,
    rfl, rfl, rfl⟩
  · unfold Ring.flush; rw [if_neg (by omega)]
  · unfold Spec.makeRoom
    rw [if_neg hc]
    refine ⟨h1, h2, h3, ?_, ?_, ?_, h.hold, ?_⟩
    · simp; show _ < r.max; omega
    · show (r.rear + (r.max - 1)) % r.max = (r.front + t.q.dropLast.length) % r.max
      rw [mod_lt2 (by omega)] at h5
      rw [List.length_dropLast, mod_lt2 (by omega), mod_lt2 (by omega)]
      grind
    · intro i y hy
      rw [List.getElem?_dropLast] at hy
      split at hy
      · exact h.hq i y hy
      · simp at hy
    · simp [h.hlost]
  · unfold Spec.makeRoom
    rw [if_neg hc]
    simp; omega

/-- The forced slot of the writer: at most one frame is discarded and a slot is obtained, whatever
iteration budget of at least two loop tests is given. -/
theorem Rel.forceGetRear {r : Ring α} {t : Spec α} (h : Rel r t) (fuel : Nat) (hfuel : 2 ≤ fuel) :
    ∃ r', r.forceGetRear fuel = .ok (r', r'.rear) ∧ Rel r' t.makeRoom ∧
      t.makeRoom.q.length < t.makeRoom.cap ∧
      r'.slots = r.slots ∧ r'.front = r.front ∧ r'.max = r.max := by
  obtain ⟨f, rfl⟩ : ∃ f, fuel = f + 2 := ⟨fuel - 2, by omega⟩
  unfold Ring.forceGetRear
  rw [h.getRear_eq]
  by_cases hc : t.q.length < t.cap
  · have e : t.makeRoom = t := by unfold Spec.makeRoom; rw [if_pos hc]
    refine ⟨r, ?_, ?_, ?_, rfl, rfl, rfl⟩
    · simp [hc]
    · rw [e]; exact h
    · rw [e]; exact hc
  · obtain ⟨r', hr', hrel, hroom, hs, hfr, hm⟩ := h.flush hc
    refine ⟨r', ?_, hrel, hroom, hs, hfr, hm⟩
    simp only [hc, if_false, Outcome.bind_ok, hr']
    unfold Ring.forceGetRear
    rw [hrel.getRear_eq]
    simp [hroom]

theorem Rel.writerSlot_false {r : Ring α} {t : Spec α} (h : Rel r t) :
    r.writerSlot false = .ok (r, if t.q.length < t.cap then some r.rear else none) := by
  unfold Ring.writerSlot
  rw [h.getRear_eq]
  split <;> simp

theorem Rel.writerSlot_true {r : Ring α} {t : Spec α} (h : Rel r t) :
    ∃ r', r.writerSlot true = .ok (r', some r'.rear) ∧ Rel r' t.makeRoom ∧
      t.makeRoom.q.length < t.makeRoom.cap ∧
      r'.slots = r.slots ∧ r'.front = r.front ∧ r'.max = r.max := by
  unfold Ring.writerSlot
  rw [h.getRear_eq]
  by_cases hc : t.q.length < t.cap
  · have e : t.makeRoom = t := by unfold Spec.makeRoom; rw [if_pos hc]
    exact ⟨r, by simp [hc], by rw [e]; exact h, by rw [e]; exact hc, rfl, rfl, rfl⟩
  · obtain ⟨r', hr', hrel, hroom, hs, hfr, hm⟩ := h.forceGetRear 3 (by omega)
    refine ⟨r', ?_, hrel, hroom, hs, hfr, hm⟩
    simp [hc, hr']

theorem Rel.getElements_eq {r : Ring α} {t : Spec α} (h : Rel r t) :
    r.getElements = t.q.length := by
  have h1 := h.hmax; have h3 := h.hf; have h4 := h.hlen; have h5 := h.hr
  rw [mod_lt2 (by omega)] at h5
  unfold Ring.getElements
  grind

theorem Rel.take {r : Ring α} {t : Spec α} (h : Rel r t) (x : α) (q : List α)
    (hq : t.q = x :: q) :
    r.getFront = some r.front ∧ r.slots r.front = x ∧
    ∃ r', r.removeFrame = .ok (r', true) ∧ r'.slots = r.slots ∧ r'.rear = r.rear ∧
      r'.front = (r.front + 1) % r.max ∧ Rel r' { t with q := q, last := x } := by
  have h1 := h.hmax; have h2 := h.hcap; have h3 := h.hf; have h4 := h.hlen; have h5 := h.hr
  have hne : r.rear ≠ r.front := by
    intro hcon
    have := h.empty_iff.1 hcon
    rw [hq] at this; cases this
  have hlen : t.q.length = q.length + 1 := by rw [hq]; simp
  have hx : r.slots r.front = x := by
    have := h.hq 0 x (by rw [hq]; rfl)
    rwa [Nat.add_zero, Nat.mod_eq_of_lt h3] at this
  refine ⟨by unfold Ring.getFront; rw [if_neg hne], hx,
    { r with front := (r.front + 1) % r.max }, ?_, rfl, rfl, rfl, ?_⟩
  · unfold Ring.removeFrame; rw [if_neg hne, if_neg (by omega)]
  · refine ⟨h1, h2, Nat.mod_lt _ (by omega), ?_, ?_, ?_, ?_, h.hlost⟩
    · show q.length < r.max; omega
    · show r.rear = ((r.front + 1) % r.max + q.length) % r.max
      rw [h5, hlen, Nat.mod_add_mod]; congr 1; omega
    · intro i y hy
      show r.slots (((r.front + 1) % r.max + i) % r.max) = y
      rw [Nat.mod_add_mod]
      have := h.hq (i + 1) y (by rw [hq]; simpa using hy)
      rw [← this]; congr 2; omega
    · show r.slots (((r.front + 1) % r.max + (r.max - 1)) % r.max) = x
      rw [Nat.mod_add_mod]
      have : r.front + 1 + (r.max - 1) = r.front + r.max := by omega
      rw [this, Nat.add_mod_right, Nat.mod_eq_of_lt h3, hx]

/-- Every operation of the ring does what the abstract queue does. -/
theorem step_rel (r : Ring α) (t : Spec α) (op : Op α) (h : Rel r t) :
    ∃ r', step r op = .ok (r', (t.step op).2) ∧ Rel r' (t.step op).1 := by
  cases op with
  | fill x =>
    simp only [step, Spec.step, h.writerSlot_false]
    by_cases hc : t.q.length < t.cap
    · simp only [hc, if_true, Outcome.bind_ok]
      exact ⟨_, rfl, h.write hc x⟩
    · simp only [hc, if_false, Outcome.bind_ok]
      exact ⟨_, rfl, h⟩
  | put x =>
    simp only [step, Spec.step, h.writerSlot_false]
    by_cases hc : t.q.length < t.cap
    · obtain ⟨r', hr', hrel⟩ := h.put hc x
      simp only [hc, if_true, Outcome.bind_ok, hr']
      exact ⟨_, rfl, hrel⟩
    · simp only [hc, if_false, Outcome.bind_ok]
      exact ⟨_, rfl, h⟩
  | forceFill x =>
    obtain ⟨r', hr', hrel, hroom, _⟩ := h.writerSlot_true
    simp only [step, Spec.step, hr', Outcome.bind_ok]
    exact ⟨_, rfl, hrel.write hroom x⟩
  | forcePut x =>
    obtain ⟨r', hr', hrel, hroom, _⟩ := h.writerSlot_true
    obtain ⟨r'', hr'', hrel''⟩ := hrel.put hroom x
    simp only [step, Spec.step, hr', Outcome.bind_ok, hr'']
    exact ⟨_, rfl, hrel''⟩
  | peek =>
    simp only [step, Spec.step]
    refine ⟨r, ?_, h⟩
    rcases hq : t.q with _ | ⟨x, q⟩
    · have : r.getFront = none := by unfold Ring.getFront; rw [if_pos (h.empty_iff.2 hq)]
      simp [this]
    · obtain ⟨h1, h2, _⟩ := h.take x q hq
      simp [h1, h2]
  | take =>
    simp only [step, Spec.step]
    rcases hq : t.q with _ | ⟨x, q⟩
    · have : r.getFront = none := by unfold Ring.getFront; rw [if_pos (h.empty_iff.2 hq)]
      simp only [this]
      exact ⟨r, rfl, h⟩
    · obtain ⟨h1, h2, r', hr', _, _, _, hrel⟩ := h.take x q hq
      simp only [h1, hr', Outcome.bind_ok, h2]
      exact ⟨r', rfl, hrel⟩
  | old =>
    have := h.hmax
    simp only [step, Spec.step, Ring.forceGetFront]
    rw [if_neg (by omega)]
    simp only [Outcome.bind_ok, h.hold]
    exact ⟨r, rfl, h⟩
  | count =>
    simp only [step, Spec.step, h.getElements_eq]
    exact ⟨r, rfl, h⟩

theorem create_rel (maxFrames : Nat) (hm : 2 ≤ maxFrames) (d : Nat → α) :
    Rel (Ring.create maxFrames d) (Spec.init maxFrames d) := by
  have e : (Ring.create maxFrames d).max = min maxFrames MAX_FRAMES := by
    unfold Ring.create; show (if _ then _ else _) = _; unfold MAX_FRAMES; split <;> omega
  have h2 : 2 ≤ min maxFrames MAX_FRAMES := by unfold MAX_FRAMES; omega
  refine ⟨by rw [e]; exact h2, ?_, ?_, ?_, ?_, ?_, ?_, rfl⟩
  · rw [e]; unfold Spec.init; show _ - 1 + 1 = _; omega
  · rw [e]; show 0 < _; omega
  · rw [e]; show 0 < _; omega
  · rw [e]; show 0 = (0 + 0) % _; simp
  · intro i x hx; simp [Spec.init] at hx
  · rw [e]; show d ((0 + _) % _) = d _
    rw [Nat.zero_add, Nat.mod_eq_of_lt (by omega)]

end Lms.FrameQueue
