import Verif.Pool.Model

namespace Lms.Pool

@[simp] theorem set_same {α β : Type} [DecidableEq α] (f : α → β) (i : α) (v : β) : set f i v i = v := by
  simp [set]
theorem set_ne {α β : Type} [DecidableEq α] (f : α → β) {i j : α} (v : β) (h : j ≠ i) : set f i v j = f j := by
  simp [set, h]

/-- The job the scan stops at. -/
def P.firstIdle (s : P) (l : List Nat) : Option Nat := l.find? fun p => !s.running p

theorem scan_ok (s : P) (now : Nat) : ∀ (n : Nat) (q : TQ) (q' : TQ) (o : Option Nat),
    s.scan now n q = .ok (q', o) →
    (∃ p, o = some p ∧ s.firstIdle (q.queue.drop q.iter) = some p ∧ s.ready now p = true ∧
      s.freed p = false ∧ ∃ a l, q.queue = a :: l ∧
        q' = { set := q.set.erase (s.ident a), queue := l, iter := 0 }) ∨
    (o = none ∧ q' = q.reset ∧ ∀ p, s.firstIdle (q.queue.drop q.iter) = some p → s.ready now p = false) := by
  intro n
  induction n with
  | zero => intro q q' o h; simp [P.scan] at h
  | succ n ih =>
    intro q q' o h
    unfold P.scan at h
    rcases hc : q.current with _ | p
    · rw [hc] at h
      simp at h
      right
      refine ⟨h.2.symm, h.1.symm, ?_⟩
      intro p hp
      unfold TQ.current at hc
      rw [List.getElem?_eq_none_iff] at hc
      rw [List.drop_eq_nil_iff.2 hc] at hp
      simp [P.firstIdle] at hp
    · rw [hc] at h
      simp only at h
      unfold TQ.current at hc
      have hlt : q.iter < q.queue.length := by
        rcases Nat.lt_or_ge q.iter q.queue.length with h1 | h1
        · exact h1
        · rw [List.getElem?_eq_none_iff.2 h1] at hc; simp at hc
      have hp : q.queue[q.iter] = p := by
        rw [List.getElem?_eq_getElem hlt] at hc; simpa using hc
      have hd : q.queue.drop q.iter = p :: q.queue.drop (q.iter + 1) := by
        rw [List.drop_eq_getElem_cons hlt, hp]
      by_cases hf : s.freed p = true
      · rw [if_pos hf] at h; simp at h
      · rw [if_neg hf] at h
        have hf : s.freed p = false := by simpa using hf
        cases hr : s.running p with
        | true =>
          rw [hr] at h
          simp only [Bool.not_true, Bool.false_and, Bool.false_eq_true, if_false] at h
          have hq : q.next = { q with iter := q.iter + 1 } := by simp [TQ.next, hlt]
          rw [hq] at h
          have := ih _ _ _ h
          simp only at this
          have e : s.firstIdle (q.queue.drop q.iter) = s.firstIdle (q.queue.drop (q.iter + 1)) := by
            rw [hd]; simp [P.firstIdle, hr]
          rw [e]
          exact this
        | false =>
          have e : s.firstIdle (q.queue.drop q.iter) = some p := by
            rw [hd]; simp [P.firstIdle, hr]
          rw [hr] at h
          cases hy : s.ready now p with
          | false =>
            rw [hy] at h
            simp at h
            right
            refine ⟨h.2.symm, h.1.symm, ?_⟩
            intro p' hp'
            rw [e] at hp'; simp at hp'; subst hp'; exact hy
          | true =>
            rw [hy] at h
            simp only [Bool.not_false, Bool.not_true, Bool.and_false, Bool.and_true, Bool.false_eq_true,
              if_false, if_true] at h
            split at h
            · simp at h
            · simp at h
              left
              refine ⟨p, h.2.symm, e, hy, hf, ?_⟩
              rcases hq : q.queue with _ | ⟨a, l⟩
              · rw [hq] at hlt; simp at hlt
              · refine ⟨a, l, rfl, ?_⟩
                rw [← h.1]
                simp [TQ.pop, hq, TQ.reset]

theorem scan_no_ub (s : P) (now : Nat) : ∀ (n : Nat) (q : TQ), q.queue.any s.freed = false →
    q.iter ≤ q.queue.length → q.queue.length < n + q.iter → ∃ q' o, s.scan now n q = .ok (q', o) := by
  intro n
  induction n with
  | zero => intro q h1 h2 h3; omega
  | succ n ih =>
    intro q h1 h2 h3
    unfold P.scan
    rcases hc : q.current with _ | p
    · exact ⟨_, _, rfl⟩
    · simp only
      unfold TQ.current at hc
      have hlt : q.iter < q.queue.length := by
        rcases Nat.lt_or_ge q.iter q.queue.length with h1 | h1
        · exact h1
        · rw [List.getElem?_eq_none_iff.2 h1] at hc; simp at hc
      have hm : p ∈ q.queue := List.mem_of_getElem? hc
      have hf : s.freed p = false := by
        rw [List.any_eq_false] at h1; simpa using h1 p hm
      simp only [hf, h1, Bool.false_eq_true, if_false]
      split
      · exact ⟨_, _, rfl⟩
      · split
        · exact ⟨_, _, rfl⟩
        · have hq : q.next = { q with iter := q.iter + 1 } := by simp [TQ.next, hlt]
          rw [hq]
          exact ih _ h1 hlt (by simp only; omega)

/-- Facts that hold in every execution. -/
structure Inv (s : P) : Prop where
  set : s.q.set.Perm (s.q.queue.map s.ident)
  nodup : (s.q.queue.map s.ident).Nodup
  reg : ∀ id p, s.reg id = some p → s.ident p = id
  run : ∀ p, s.running p = true ↔ ∃ w, s.ph w = .run p
  excl : ∀ w w' p, s.ph w = .run p → s.ph w' = .run p → w = w'
  lock : s.lock = none → ∀ w p, s.ph w ≠ .post p
  lock' : ∀ w, s.lock = some w → ∀ w' p, s.ph w' = .post p → w' = w

theorem init_inv (ident : Nat → Int) (time : Nat → Nat) : Inv (P.init ident time) := by
  constructor <;> simp [P.init, TQ.init]

theorem pushBack_inv {s : P} (h : Inv s) (p : Nat) : Inv { s with q := s.q.pushBack s.ident p } := by
  unfold TQ.pushBack
  by_cases hm : s.ident p ∈ s.q.set
  · rw [if_pos hm]; exact h
  · rw [if_neg hm]
    refine ⟨?_, ?_, h.reg, h.run, h.excl, h.lock, h.lock'⟩
    · simp only [TQ.reset, List.map_append, List.map_cons, List.map_nil]
      exact (List.Perm.cons _ h.set).trans (List.perm_append_singleton _ _).symm
    · simp only [TQ.reset, List.map_append, List.map_cons, List.map_nil]
      rw [List.nodup_append]
      refine ⟨h.nodup, by simp, ?_⟩
      intro a ha b hb
      simp at hb; subst hb
      intro e; subst e
      exact hm (h.set.mem_iff.2 ha)

theorem pushAll_ok (ids : List Int) : ∀ (s s' : P), s.pushAll ids = .ok s' →
    ∃ q, s' = { s with q := q } := by
  induction ids with
  | nil => intro s s' h; simp [P.pushAll] at h; exact ⟨s.q, by rw [← h]⟩
  | cons id ids ih =>
    intro s s' h
    unfold P.pushAll at h
    rcases hr : s.reg id with _ | p
    · rw [hr] at h; exact ih s s' h
    · rw [hr] at h
      simp only at h
      split at h
      · simp at h
      · obtain ⟨q, hq⟩ := ih _ s' h
        exact ⟨q, hq⟩

theorem pushAll_inv (ids : List Int) : ∀ (s s' : P), Inv s → s.pushAll ids = .ok s' → Inv s' := by
  induction ids with
  | nil => intro s s' h hs; simp [P.pushAll] at hs; rw [← hs]; exact h
  | cons id ids ih =>
    intro s s' h hs
    unfold P.pushAll at hs
    rcases hr : s.reg id with _ | p
    · rw [hr] at hs; exact ih s s' h hs
    · rw [hr] at hs
      simp only at hs
      split at hs
      · simp at hs
      · exact ih _ s' (pushBack_inv h p) hs

/-- What one step does, when it is defined. -/
theorem pick_ok {s s' : P} {w now : Nat} {o : Option Nat} (h : s.pick w now = .ok (s', o)) :
    (o = none ∧ s' = { s with q := s.q.reset } ∧
      ∀ p, s.firstIdle s.q.queue = some p → s.ready now p = false) ∨
    (∃ p a l, o = some p ∧ s.firstIdle s.q.queue = some p ∧ s.ready now p = true ∧ s.freed p = false ∧
      s.q.queue = a :: l ∧
      s' = { s with q := { set := s.q.set.erase (s.ident a), queue := l, iter := 0 }
                    running := set s.running p true, ph := set s.ph w (.run p) }) := by
  unfold P.pick at h
  rcases hs : s.scan now (s.q.queue.length + 1) s.q.reset with ⟨q, o'⟩ | _ | _
  · rw [hs] at h
    simp only [Outcome.bind_ok] at h
    rcases scan_ok s now _ _ _ _ hs with ⟨p, rfl, h1, h2, h3, a, l, h4, h5⟩ | ⟨rfl, h1, h2⟩
    · right
      simp at h
      refine ⟨p, a, l, h.2.symm, by simpa [TQ.reset] using h1, h2, h3, h4, ?_⟩
      rw [← h.1, h5]; rfl
    · left
      simp at h
      refine ⟨h.2.symm, ?_, by simpa [TQ.reset] using h2⟩
      rw [← h.1, h1]; rfl
  · rw [hs] at h; simp at h
  · rw [hs] at h; simp at h

theorem firstIdle_some {s : P} {l : List Nat} {p : Nat} (h : s.firstIdle l = some p) :
    p ∈ l ∧ s.running p = false := by
  unfold P.firstIdle at h
  have h1 := List.mem_of_find?_eq_some h
  have h2 := List.find?_some h
  exact ⟨h1, by simpa using h2⟩

theorem step_inv {s s' : P} {op : Op} {o : Out} (h : Inv s) (hs : s.step op = .ok (s', o)) : Inv s' := by
  cases op with
  | add p =>
    simp only [P.step] at hs
    (repeat' split at hs) <;> simp at hs <;> rw [← hs.1]
    · exact h
    · exact h
    · have := pushBack_inv h p
      refine ⟨this.set, this.nodup, ?_, this.run, this.excl, this.lock, this.lock'⟩
      intro id p' hp'
      by_cases hi : id = s.ident p
      · subst hi; simp at hp'; rw [← hp']
      · simp only [set_ne _ _ hi] at hp'; exact h.reg id p' hp'
    · exact h
  | remove id =>
    simp only [P.step] at hs
    (repeat' split at hs) <;> simp at hs <;> rw [← hs.1]
    · exact h
    · exact h
    · refine ⟨h.set, h.nodup, ?_, h.run, h.excl, h.lock, h.lock'⟩
      intro id' p' hp'
      by_cases hi : id' = id
      · subst hi; simp at hp'
      · simp only [set_ne _ _ hi] at hp'; exact h.reg id' p' hp'
  | reap p =>
    simp only [P.step] at hs
    (repeat' split at hs) <;> simp at hs <;> rw [← hs.1]
    · exact h
    · exact ⟨h.set, h.nodup, h.reg, h.run, h.excl, h.lock, h.lock'⟩
  | pick w now =>
    simp only [P.step] at hs
    split at hs
    · simp at hs; rw [← hs.1]; exact h
    · rename_i hl
      have hl : s.lock = none := by simpa using hl
      split at hs
      · rename_i hph
        rcases hp : s.pick w now with ⟨s1, o1⟩ | _ | _
        · rw [hp] at hs
          simp at hs
          rw [← hs.1]
          rcases pick_ok hp with ⟨_, rfl, _⟩ | ⟨p, a, l, rfl, h1, _, _, h4, rfl⟩
          · exact ⟨h.set, h.nodup, h.reg, h.run, h.excl, h.lock, h.lock'⟩
          · have hi := firstIdle_some h1
            have hno : ∀ w', s.ph w' ≠ .run p := by
              intro w' hw'
              have := (h.run p).2 ⟨w', hw'⟩
              rw [hi.2] at this; simp at this
            have hset := h.set
            have hnd := h.nodup
            rw [h4] at hset hnd
            simp only [List.map_cons] at hset hnd
            refine ⟨?_, ?_, h.reg, ?_, ?_, ?_, ?_⟩
            · have := List.Perm.erase (s.ident a) hset
              simpa using this
            · exact (List.nodup_cons.1 hnd).2
            · intro p'
              by_cases he : p' = p
              · subst he; simp only [set_same, true_iff]; exact ⟨w, by simp⟩
              · simp only [set_ne _ _ he]
                rw [h.run]
                constructor
                · rintro ⟨w', hw'⟩
                  have : w' ≠ w := by intro e; subst e; rw [hph] at hw'; simp at hw'
                  exact ⟨w', by rw [set_ne _ _ this]; exact hw'⟩
                · rintro ⟨w', hw'⟩
                  by_cases e : w' = w
                  · subst e; simp at hw'; exact absurd hw'.symm he
                  · rw [set_ne _ _ e] at hw'; exact ⟨w', hw'⟩
            · intro w1 w2 p' h5 h6
              simp only at h5 h6
              by_cases e1 : w1 = w
              · by_cases e2 : w2 = w
                · rw [e1, e2]
                · subst e1
                  simp at h5; subst h5
                  rw [set_ne _ _ e2] at h6
                  exact absurd h6 (hno w2)
              · rw [set_ne _ _ e1] at h5
                by_cases e2 : w2 = w
                · subst e2
                  simp at h6; subst h6
                  exact absurd h5 (hno w1)
                · rw [set_ne _ _ e2] at h6
                  exact h.excl w1 w2 p' h5 h6
            · intro _ w' p'
              simp only
              by_cases e : w' = w
              · subst e; simp
              · rw [set_ne _ _ e]; exact h.lock hl w' p'
            · intro w' hw'
              simp only at hw'
              rw [hl] at hw'; simp at hw'
        · rw [hp] at hs; simp at hs
        · rw [hp] at hs; simp at hs
      · simp at hs; rw [← hs.1]; exact h
  | done w t =>
    simp only [P.step] at hs
    split at hs
    · simp at hs; rw [← hs.1]; exact h
    · rename_i hl
      have hl : s.lock = none := by simpa using hl
      split at hs
      · rename_i p hph
        split at hs
        · simp at hs
        · simp at hs
          rw [← hs.1]
          refine ⟨h.set, h.nodup, h.reg, ?_, ?_, ?_, ?_⟩
          · intro p'
            by_cases he : p' = p
            · subst he
              simp only [set_same, Bool.false_eq_true, false_iff]
              rintro ⟨w', hw'⟩
              by_cases e : w' = w
              · subst e; simp at hw'
              · rw [set_ne _ _ e] at hw'
                exact e (h.excl w' w p' hw' hph)
            · simp only [set_ne _ _ he]
              rw [h.run]
              constructor
              · rintro ⟨w', hw'⟩
                have : w' ≠ w := by intro e; subst e; rw [hph] at hw'; simp at hw'; exact he hw'.symm
                exact ⟨w', by rw [set_ne _ _ this]; exact hw'⟩
              · rintro ⟨w', hw'⟩
                by_cases e : w' = w
                · subst e; simp at hw'
                · rw [set_ne _ _ e] at hw'; exact ⟨w', hw'⟩
          · intro w1 w2 p' h5 h6
            simp only at h5 h6
            by_cases e1 : w1 = w
            · subst e1; simp at h5
            · by_cases e2 : w2 = w
              · subst e2; simp at h6
              · rw [set_ne _ _ e1] at h5; rw [set_ne _ _ e2] at h6
                exact h.excl w1 w2 p' h5 h6
          · intro h0; simp at h0
          · intro w' hw' w1 p' h1
            simp only at hw' h1
            injection hw' with hw'
            subst hw'
            by_cases e : w1 = w
            · exact e
            · rw [set_ne _ _ e] at h1
              exact absurd h1 (h.lock hl w1 p')
      · simp at hs; rw [← hs.1]; exact h
  | post w ids pending =>
    simp only [P.step] at hs
    split at hs
    · rename_i p hph
      split at hs
      · simp at hs
      · rcases hp : s.pushAll (if pending = true then ids ++ [s.ident p] else ids) with s1 | _ | _
        · rw [hp] at hs
          simp at hs
          rw [← hs.1]
          have h1 := pushAll_inv _ _ _ h hp
          obtain ⟨q, hq⟩ := pushAll_ok _ _ _ hp
          have hph1 : s1.ph = s.ph := by rw [hq]
          have hlk : s.lock = some w := by
            rcases hl : s.lock with _ | w'
            · exact absurd hph (h.lock hl w p)
            · rw [h.lock' w' hl w p hph]
          refine ⟨h1.set, h1.nodup, h1.reg, ?_, ?_, ?_, ?_⟩
          · intro p'
            simp only
            rw [h1.run]
            constructor
            · rintro ⟨w', hw'⟩
              have : w' ≠ w := by intro e; subst e; rw [hph1, hph] at hw'; simp at hw'
              exact ⟨w', by rw [set_ne _ _ this]; exact hw'⟩
            · rintro ⟨w', hw'⟩
              by_cases e : w' = w
              · subst e; simp at hw'
              · rw [set_ne _ _ e] at hw'; exact ⟨w', hw'⟩
          · intro w1 w2 p' h5 h6
            simp only at h5 h6
            by_cases e1 : w1 = w
            · subst e1; simp at h5
            · by_cases e2 : w2 = w
              · subst e2; simp at h6
              · rw [set_ne _ _ e1] at h5; rw [set_ne _ _ e2] at h6
                exact h1.excl w1 w2 p' h5 h6
          · intro _ w' p'
            simp only
            by_cases e : w' = w
            · subst e; simp
            · rw [set_ne _ _ e, hph1]
              intro h7
              exact e (h.lock' w hlk w' p' h7)
          · intro w' hw'; simp at hw'
        · rw [hp] at hs; simp at hs
        · rw [hp] at hs; simp at hs
    · simp at hs; rw [← hs.1]; exact h

theorem run_inv (ops : List Op) : ∀ (s s' : P) (outs : List Out), Inv s → runOps P.step s ops = .ok (s', outs) →
    Inv s' := by
  induction ops with
  | nil => intro s s' outs h hs; simp [runOps] at hs; rw [← hs.1]; exact h
  | cons op ops ih =>
    intro s s' outs h hs
    unfold runOps at hs
    rcases h1 : s.step op with ⟨s1, o1⟩ | _ | _
    · rw [h1] at hs
      simp only [Outcome.bind_ok] at hs
      rcases h2 : runOps P.step s1 ops with ⟨s2, o2⟩ | _ | _
      · rw [h2] at hs; simp at hs; rw [← hs.1]; exact ih s1 s2 o2 (step_inv h h1) h2
      · rw [h2] at hs; simp at hs
      · rw [h2] at hs; simp at hs
    · rw [h1] at hs; simp at hs
    · rw [h1] at hs; simp at hs

end Lms.Pool
