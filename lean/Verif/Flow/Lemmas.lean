import Verif.Flow.Spec

/-! The invariant of a path and the effect of every step on it. -/

namespace Lms.Flow

open Pool (P set_ne Awake)
open FrameQueue (Ring Rel)

variable {σ α : Type}

theorem set_eq {β γ : Type} [DecidableEq β] (f : β → γ) (i : β) (v : γ) : Pool.set f i v i = v := by
  simp [Pool.set]

theorem feed_append (f : σ → α → σ × Option α) (m : σ) (a b : List α) :
    feed f m (a ++ b) = ((feed f (feed f m a).1 b).1, (feed f m a).2 ++ (feed f (feed f m a).1 b).2) := by
  induction a generalizing m with
  | nil => simp [feed]
  | cons x a ih => simp [feed, ih]

theorem seen_append (k : Nat) (a b : List (Out α)) : seen k (a ++ b) = seen k a ++ seen k b := by
  induction a with
  | nil => rfl
  | cons o a ih =>
    rcases o with _ | ⟨k', _ | x, y⟩
    · simpa [seen] using ih
    · simpa [seen] using ih
    · simp only [List.cons_append, seen]
      split
      · rw [ih]; rfl
      · exact ih

theorem made_append (k : Nat) (a b : List (Out α)) : made k (a ++ b) = made k a ++ made k b := by
  induction a with
  | nil => rfl
  | cons o a ih =>
    rcases o with _ | ⟨k', x, _ | y⟩
    · simpa [made] using ih
    · simpa [made] using ih
    · simp only [List.cons_append, made]
      split
      · rw [ih]; rfl
      · exact ih

/-- What the abstract queues are, and which filters have processed, but not yet released, the frame in
front of them. -/
structure Ghost (α : Type) where
  t : Nat → FrameQueue.Spec α
  c : Nat → Bool

/-- The origin frame held by a worker running filter `k`. -/
def HasOrigin (ring : Nat → Ring α) (g : Ghost α) (k : Nat) (o : Option Nat) : Prop :=
  match k with
  | 0 => o = none
  | j + 1 => o = some (ring j).front ∧ (g.t j).q ≠ []

/-- The destination frame held by a worker running filter `k`. -/
def HasDest (last : Nat) (ring : Nat → Ring α) (g : Ghost α) (k : Nat) (d : Option Nat) : Prop :=
  if k = last then d = none else d = some (ring k).rear ∧ (g.t k).q.length < (g.t k).cap

/-- What holds of a worker running filter `k`. -/
def Good (last : Nat) (ring : Nat → Ring α) (g : Ghost α) (k : Nat) : Act → Prop
  | .out => False
  | .start => g.c k = false
  | .origin o => g.c k = false ∧ HasOrigin ring g k o
  | .both o d => g.c k = false ∧ HasOrigin ring g k o ∧ HasDest last ring g k d
  | .worked o _ => g.c k = true ∧ HasOrigin ring g k o
  | .fin _ => g.c k = false

/-- The frames in queue `k` that filter `k + 1` has not processed. -/
def Ghost.rest (g : Ghost α) (k : Nat) : List α := if g.c (k + 1) then (g.t k).q.tail else (g.t k).q

/-- The invariant. -/
structure Inv (c : Chain σ α) (m0 : Nat → σ) (s : S σ α) (g : Ghost α) (outs : List (Out α)) : Prop where
  pinv : Pool.Inv s.pool
  ident : ∀ k : Nat, s.pool.ident k = (k : Int)
  freed : ∀ k, s.pool.freed k = false
  queued : ∀ k ∈ s.pool.q.queue, k ≤ c.last
  known : ∀ id p, s.pool.reg id = some p → p ≤ c.last
  idle : ∀ w, s.pool.ph w = .idle → s.act w = .out
  run : ∀ w k, s.pool.ph w = .run k → k ≤ c.last ∧ Good c.last s.ring g k (s.act w)
  post : ∀ w k, s.pool.ph w = .post k → k ≤ c.last ∧ ∃ en, s.act w = .fin en
  free : ∀ k, (∀ w, s.pool.ph w ≠ .run k) → g.c k = false
  ring : ∀ k, Rel (s.ring k) (g.t k) ∧ 3 ≤ (s.ring k).max
  front : ∀ k, g.c (k + 1) = true → (g.t k).q ≠ []
  hist : ∀ k, k < c.last → (seen (k + 1) outs ++ g.rest k).Sublist (made k outs) ∧
    (made k outs).length = (seen (k + 1) outs ++ g.rest k).length + (g.t k).lost
  mem : ∀ k, 0 < k → k ≤ c.last → (feed (c.work k) (m0 k) (seen k outs)).1 = s.mem k ∧
    (k < c.last → (feed (c.work k) (m0 k) (seen k outs)).2 = made k outs)
  wake : ∀ k, k < c.last → s.pool.reg ((k : Int) + 1) = some (k + 1) → (g.t k).q ≠ [] →
    Awake s.pool (k + 1) ∨ Notifies s k
  head : s.pool.reg 0 = some 0 → Awake s.pool 0

theorem rel_inj {r : Ring α} {t : FrameQueue.Spec α} (h : Rel r t) : t.cap = r.max - 1 := by
  have := h.hcap; omega

theorem awake_of {c : Chain σ α} {m0 : Nat → σ} {s : S σ α} {g : Ghost α} {outs : List (Out α)}
    (h : Inv c m0 s g outs) {p : Nat} (hr : s.pool.reg (p : Int) = some p)
    (ha : p ∈ s.pool.q.queue ∨ ∃ w, s.pool.ph w = .run p ∨ s.pool.ph w = .post p) : Awake s.pool p := by
  refine ⟨by rw [h.ident]; exact hr, ?_, ha⟩
  intro x _ he
  rw [h.ident, h.ident] at he
  omega

/-! ### Steps of the pool -/

theorem none_freed {s : P} (h : ∀ k, s.freed k = false) (l : List Nat) : l.any s.freed = false := by
  simp [h]

theorem pushAll_total (ids : List Int) : ∀ (s : P), (∀ k, s.freed k = false) →
    ∃ s', s.pushAll ids = .ok s' := by
  induction ids with
  | nil => intro s _; exact ⟨s, rfl⟩
  | cons id ids ih =>
    intro s h
    unfold P.pushAll
    rcases s.reg id with _ | p
    · exact ih s h
    · simp only [none_freed h, Bool.false_eq_true, if_false]
      exact ih _ h

theorem pushBack_mem (ident : Nat → Int) (q : Pool.TQ) (p x : Nat) (h : x ∈ (q.pushBack ident p).queue) :
    x ∈ q.queue ∨ x = p := by
  unfold Pool.TQ.pushBack at h
  split at h
  · exact Or.inl h
  · simpa [Pool.TQ.reset] using h

theorem pushAll_mem (ids : List Int) : ∀ (s s' : P), s.pushAll ids = .ok s' →
    ∀ x ∈ s'.q.queue, x ∈ s.q.queue ∨ ∃ id, s.reg id = some x := by
  induction ids with
  | nil => intro s s' h x hx; simp [P.pushAll] at h; rw [← h] at hx; exact Or.inl hx
  | cons id ids ih =>
    intro s s' h x hx
    unfold P.pushAll at h
    rcases hr : s.reg id with _ | p
    · rw [hr] at h; exact ih s s' h x hx
    · rw [hr] at h
      simp only at h
      split at h
      · simp at h
      · rcases ih _ s' h x hx with hx | hx
        · rcases pushBack_mem _ _ _ _ hx with hx | hx
          · exact Or.inl hx
          · exact Or.inr ⟨id, by rw [hx, hr]⟩
        · exact Or.inr hx

theorem pick_total {s : P} (h : ∀ k, s.freed k = false) (w now : Nat) : ∃ s' o, s.pick w now = .ok (s', o) := by
  obtain ⟨q, o, hq⟩ := Pool.scan_no_ub s now (s.q.queue.length + 1) s.q.reset (none_freed h _)
    (by simp [Pool.TQ.reset]) (by simp [Pool.TQ.reset])
  unfold P.pick
  rw [hq]
  rcases o with _ | p
  · exact ⟨_, _, rfl⟩
  · exact ⟨_, _, rfl⟩


section
variable {c : Chain σ α} {m0 : Nat → σ} {s : S σ α} {g : Ghost α} {outs : List (Out α)}

theorem Inv.quiet (h : Inv c m0 s g outs) : Inv c m0 s g (outs ++ [.quiet]) := by
  refine { h with hist := ?_, mem := ?_ }
  · simpa [seen_append, made_append, seen, made] using h.hist
  · simpa [seen_append, made_append, seen, made] using h.mem

theorem notifies_congr {s s' : S σ α} {k : Nat} (h : Notifies s k)
    (e : ∀ w, (s.pool.ph w = .run k ∨ s.pool.ph w = .post k) →
      (s'.pool.ph w = .run k ∨ s'.pool.ph w = .post k) ∧ s'.act w = s.act w) : Notifies s' k := by
  obtain ⟨w, hw, en, h1, h2⟩ := h
  obtain ⟨e1, e2⟩ := e w hw
  exact ⟨w, e1, en, by rw [e2]; exact h1, h2⟩

theorem step_add (h : Inv c m0 s g outs) (k : Nat) :
    ∃ s' o, s.step c (.add k) = .ok (s', o) ∧ Inv c m0 s' g (outs ++ [o]) := by
  unfold S.step
  by_cases hk : c.last < k
  · simp only [hk, if_true]
    exact ⟨s, .quiet, rfl, h.quiet⟩
  · simp only [hk, if_false, S.onPool]
    rcases hp : s.pool.step (.add k) with ⟨p, o⟩ | _ | _
    · refine ⟨{ s with pool := p }, .quiet, rfl, Inv.quiet ?_⟩
      have hi := Pool.step_inv h.pinv hp
      have aw : ∀ q, Awake s.pool q → Awake p q := fun q ha => Pool.awake_step (op := .add k) h.pinv ha trivial hp
      simp only [P.step] at hp
      (repeat' split at hp) <;> simp at hp
      · rw [← hp.1]; exact h
      · rw [← hp.1]; exact h
      · rename_i hnone _
        rw [h.ident] at hnone
        have e := hp.1
        have eph : p.ph = s.pool.ph := by rw [← e]
        have ereg : ∀ id, p.reg id = if id = (k : Int) then some k else s.pool.reg id := by
          intro id; rw [← e, h.ident]; rfl
        have new : Awake p k := by
          refine ⟨by rw [← e]; simp [Pool.set], ?_, ?_⟩
          · intro x _ hx
            have : s.pool.ident x = s.pool.ident k := by rw [← e] at hx; exact hx
            rw [h.ident, h.ident] at this; omega
          · left
            rw [← e]
            simp only
            unfold Pool.TQ.pushBack
            by_cases hm : s.pool.ident k ∈ s.pool.q.set
            · rw [if_pos hm]
              obtain ⟨y, hy, hy2⟩ := List.mem_map.1 (h.pinv.set.mem_iff.1 hm)
              rw [h.ident, h.ident] at hy2
              have : y = k := by omega
              rw [← this]; exact hy
            · rw [if_neg hm]; simp [Pool.TQ.reset]
        refine { pinv := hi, ident := ?_, freed := ?_, queued := ?_, known := ?_, idle := ?_, run := ?_,
                 post := ?_, free := ?_, ring := h.ring, front := h.front, hist := h.hist, mem := h.mem,
                 wake := ?_, head := ?_ }
        · intro x; rw [← e]; exact h.ident x
        · intro x; rw [← e]; exact h.freed x
        · intro x hx
          simp only at hx
          rw [← e] at hx
          rcases pushBack_mem _ _ _ _ hx with hx | hx
          · exact h.queued x hx
          · omega
        · intro id q hq
          simp only at hq
          rw [ereg] at hq
          split at hq
          · simp at hq; omega
          · exact h.known id q hq
        · intro w hw; simp only [eph] at hw; exact h.idle w hw
        · intro w j hw; simp only [eph] at hw; exact h.run w j hw
        · intro w j hw; simp only [eph] at hw; exact h.post w j hw
        · intro j hj; simp only [eph] at hj; exact h.free j hj
        · intro j hj hr hq
          simp only [ereg] at hr
          split at hr
          · rename_i e2
            have : k = j + 1 := by omega
            subst this
            exact Or.inl new
          · rcases h.wake j hj hr hq with ha | hn
            · exact Or.inl (aw _ ha)
            · exact Or.inr (notifies_congr hn fun w hw => ⟨by simp only [eph]; exact hw, rfl⟩)
        · intro hr
          simp only [ereg] at hr
          split at hr
          · have : k = 0 := by omega
            subst this
            exact new
          · exact aw _ (h.head hr)
      · rw [← hp.1]; exact h
    · have := h.freed
      simp only [P.step] at hp
      (repeat' split at hp) <;> simp_all
    · simp only [P.step] at hp
      (repeat' split at hp) <;> simp_all

theorem step_pick (h : Inv c m0 s g outs) (w now : Nat) :
    ∃ s' o, s.step c (.pick w now) = .ok (s', o) ∧ Inv c m0 s' g (outs ++ [o]) := by
  unfold S.step
  simp only [S.onPool]
  have aw : ∀ p o, s.pool.step (.pick w now) = .ok (p, o) → ∀ q, Awake s.pool q → Awake p q :=
    fun p o hp q ha => Pool.awake_step (op := .pick w now) h.pinv ha trivial hp
  have hi : ∀ p o, s.pool.step (.pick w now) = .ok (p, o) → Pool.Inv p :=
    fun p o hp => Pool.step_inv h.pinv hp
  by_cases hl : s.pool.lock.isSome
  · simp only [P.step, hl, if_true, Outcome.bind_ok]
    exact ⟨s, .quiet, rfl, h.quiet⟩
  · rcases hph : s.pool.ph w with _ | k | k
    · obtain ⟨p, o, hp⟩ := pick_total h.freed w now
      have hst : s.pool.step (.pick w now) = .ok (p, match (generalizing := false) o with | none => .waits | some p => .picked p) := by
        simp only [P.step, hl, hph, hp, Outcome.bind_ok, Bool.false_eq_true, if_false]
        rcases o with _ | _ <;> rfl
      have aw := aw _ _ hst
      have hi := hi _ _ hst
      rw [hst]
      simp only [Outcome.bind_ok]
      rcases Pool.pick_ok hp with ⟨rfl, e, _⟩ | ⟨k, a, l, rfl, g1, _, _, g4, e⟩
      · refine ⟨{ s with pool := p }, .quiet, rfl, Inv.quiet ?_⟩
        subst e
        exact { pinv := hi, ident := h.ident, freed := h.freed, queued := h.queued, known := h.known
                idle := h.idle, run := h.run, post := h.post, free := h.free, ring := h.ring
                front := h.front, hist := h.hist, mem := h.mem
                wake := fun j hj hr hq => (h.wake j hj hr hq).imp (aw _)
                  (fun hn => notifies_congr hn fun w hw => ⟨hw, rfl⟩)
                head := fun hr => aw _ (h.head hr) }
      · refine ⟨{ s with pool := p, act := Pool.set s.act w .start }, .quiet, rfl, Inv.quiet ?_⟩
        obtain ⟨hk1, hk2⟩ := Pool.firstIdle_some g1
        have hno : ∀ w', s.pool.ph w' ≠ .run k := by
          intro w' hw'
          rw [(h.pinv.run k).2 ⟨w', hw'⟩] at hk2
          simp at hk2
        have eph : p.ph = Pool.set s.pool.ph w (.run k) := by rw [e]
        have ereg : p.reg = s.pool.reg := by rw [e]
        refine { pinv := hi, ident := ?_, freed := ?_, queued := ?_, known := ?_, idle := ?_, run := ?_,
                 post := ?_, free := ?_, ring := h.ring, front := h.front, hist := h.hist, mem := h.mem,
                 wake := ?_, head := ?_ }
        · intro x; rw [e]; exact h.ident x
        · intro x; rw [e]; exact h.freed x
        · intro x hx
          simp only at hx
          rw [e] at hx
          exact h.queued x (by rw [g4]; exact List.mem_cons_of_mem _ hx)
        · intro id q hq; simp only [ereg] at hq; exact h.known id q hq
        · intro w' hw'
          simp only [eph] at hw'
          by_cases e2 : w' = w
          · subst e2; rw [set_eq] at hw'; simp at hw'
          · rw [set_ne _ _ e2] at hw'; simp only [set_ne _ _ e2]; exact h.idle w' hw'
        · intro w' j hw'
          simp only [eph] at hw'
          by_cases e2 : w' = w
          · subst e2
            rw [set_eq] at hw'
            injection hw' with hw'
            subst hw'
            simp only [set_eq]
            exact ⟨h.queued k hk1, h.free k hno⟩
          · rw [set_ne _ _ e2] at hw'; simp only [set_ne _ _ e2]; exact h.run w' j hw'
        · intro w' j hw'
          simp only [eph] at hw'
          by_cases e2 : w' = w
          · subst e2; rw [set_eq] at hw'; simp at hw'
          · rw [set_ne _ _ e2] at hw'; simp only [set_ne _ _ e2]; exact h.post w' j hw'
        · intro j hj
          apply h.free j
          intro w' hw'
          have e2 : w' ≠ w := by rintro rfl; rw [hph] at hw'; simp at hw'
          apply hj w'
          simp only [eph, set_ne _ _ e2]
          exact hw'
        · intro j hj hr hq
          simp only [ereg] at hr
          refine (h.wake j hj hr hq).imp (aw _) (fun hn => notifies_congr hn fun w' hw' => ?_)
          have e2 : w' ≠ w := by rintro rfl; rw [hph] at hw'; simp at hw'
          simp only [eph, set_ne _ _ e2]
          exact ⟨hw', trivial⟩
        · intro hr
          simp only [ereg] at hr
          exact aw _ (h.head hr)
    · simp only [P.step, hl, hph]
      exact ⟨s, .quiet, rfl, h.quiet⟩
    · simp only [P.step, hl, hph]
      exact ⟨s, .quiet, rfl, h.quiet⟩

theorem step_done (h : Inv c m0 s g outs) (w t : Nat) :
    ∃ s' o, s.step c (.done w t) = .ok (s', o) ∧ Inv c m0 s' g (outs ++ [o]) := by
  unfold S.step
  rcases ha : s.act w with _ | _ | _ | _ | _ | en <;> simp only [ha]
  case fin =>
    simp only [S.onPool]
    by_cases hl : s.pool.lock.isSome
    · simp only [P.step, hl, if_true, Outcome.bind_ok]
      exact ⟨s, .quiet, rfl, h.quiet⟩
    · rcases hph : s.pool.ph w with _ | k | k
      · simp only [P.step, hl, hph]
        exact ⟨s, .quiet, rfl, h.quiet⟩
      · have hst : s.pool.step (.done w t) = .ok ({ s.pool with
            running := Pool.set s.pool.running k false, time := Pool.set s.pool.time k t
            ph := Pool.set s.pool.ph w (.post k), lock := some w }, .unit) := by
          simp [P.step, hl, hph, h.freed]
        have aw : ∀ q, Awake s.pool q → Awake _ q :=
          fun q ha => Pool.awake_step (op := .done w t) h.pinv ha trivial hst
        have hi := Pool.step_inv h.pinv hst
        rw [hst]
        simp only [Outcome.bind_ok]
        refine ⟨_, _, rfl, Inv.quiet ?_⟩
        obtain ⟨hk, hg⟩ := h.run w k hph
        rw [ha] at hg
        have hck : g.c k = false := hg
        refine { pinv := hi, ident := h.ident, freed := h.freed, queued := h.queued, known := h.known,
                 idle := ?_, run := ?_, post := ?_, free := ?_, ring := h.ring, front := h.front,
                 hist := h.hist, mem := h.mem, wake := ?_, head := fun hr => aw _ (h.head hr) }
        · intro w' hw'
          simp only at hw'
          by_cases e2 : w' = w
          · subst e2; rw [set_eq] at hw'; simp at hw'
          · rw [set_ne _ _ e2] at hw'; exact h.idle w' hw'
        · intro w' j hw'
          simp only at hw'
          by_cases e2 : w' = w
          · subst e2; rw [set_eq] at hw'; simp at hw'
          · rw [set_ne _ _ e2] at hw'; exact h.run w' j hw'
        · intro w' j hw'
          simp only at hw'
          by_cases e2 : w' = w
          · subst e2
            rw [set_eq] at hw'
            injection hw' with hw'
            subst hw'
            exact ⟨hk, en, ha⟩
          · rw [set_ne _ _ e2] at hw'; exact h.post w' j hw'
        · intro j hj
          by_cases e3 : j = k
          · subst e3; exact hck
          · apply h.free j
            intro w' hw'
            have e2 : w' ≠ w := by
              rintro rfl
              rw [hph] at hw'
              injection hw' with hw'
              exact e3 hw'.symm
            apply hj w'
            simp only [set_ne _ _ e2]
            exact hw'
        · intro j hj hr hq
          refine (h.wake j hj hr hq).imp (aw _) (fun hn => notifies_congr hn fun w' hw' => ?_)
          refine ⟨?_, rfl⟩
          by_cases e2 : w' = w
          · subst e2
            rw [hph] at hw'
            simp only [set_eq]
            rcases hw' with hw' | hw'
            · injection hw' with hw'; rw [hw']; exact Or.inr rfl
            · simp at hw'
          · simp only [set_ne _ _ e2]; exact hw'
      · simp only [P.step, hl, hph]
        exact ⟨s, .quiet, rfl, h.quiet⟩
  all_goals exact ⟨s, .quiet, rfl, h.quiet⟩

theorem step_post (h : Inv c m0 s g outs) (w : Nat) :
    ∃ s' o, s.step c (.post w) = .ok (s', o) ∧ Inv c m0 s' g (outs ++ [o]) := by
  unfold S.step
  rcases hph : s.pool.ph w with _ | k | k
  case post =>
    obtain ⟨hk, en, ha⟩ := h.post w k hph
    simp only [hph, ha, S.onPool]
    obtain ⟨ids, hids⟩ : ∃ ids, ids = (if k = 0 then en ++ [0] else en) := ⟨_, rfl⟩
    rw [← hids]
    obtain ⟨q, hq⟩ := pushAll_total (if s.pending k = true then ids ++ [s.pool.ident k] else ids) s.pool h.freed
    obtain ⟨tq, htq⟩ := Pool.pushAll_ok _ _ _ hq
    have hst : s.pool.step (.post w ids (s.pending k)) =
        .ok ({ q with ph := Pool.set q.ph w .idle, lock := none }, .unit) := by
      simp only [P.step, hph, h.freed, hq, Outcome.bind_ok, Bool.false_eq_true, if_false]
    have hi := Pool.step_inv h.pinv hst
    have aw : ∀ x, Awake s.pool x → (x = k → s.pending k = true) →
        Awake { q with ph := Pool.set q.ph w .idle, lock := none } x := by
      intro x hx hpe
      refine Pool.awake_step (op := .post w ids (s.pending k)) h.pinv hx ?_ hst
      intro hw
      rw [hph] at hw
      injection hw with hw
      exact hpe hw.symm
    have told : ∀ x : Nat, s.pool.reg (x : Int) = some x → (x : Int) ∈ ids →
        Awake { q with ph := Pool.set q.ph w .idle, lock := none } x := by
      intro x hx hm
      have hu : ∀ y ∈ s.pool.q.queue, s.pool.ident y = s.pool.ident x → y = x := by
        intro y _ he; rw [h.ident, h.ident] at he; omega
      obtain ⟨g1, g2, g3⟩ := Pool.pushAll_awake _ _ _ x h.pinv (by rw [h.ident]; exact hx) hu hq
      refine ⟨?_, ?_, Or.inl (g3 ?_)⟩
      · subst htq; simp only [h.ident]; exact hx
      · subst htq; exact g1
      · rw [h.ident x]
        split
        · exact List.mem_append_left _ hm
        · exact hm
    have hmem := pushAll_mem _ _ _ hq
    rw [hst]
    simp only [Outcome.bind_ok]
    refine ⟨_, _, rfl, Inv.quiet ?_⟩
    subst htq
    refine { pinv := hi, ident := h.ident, freed := h.freed, queued := ?_, known := h.known,
             idle := ?_, run := ?_, post := ?_, free := ?_, ring := h.ring, front := h.front,
             hist := h.hist, mem := h.mem, wake := ?_, head := ?_ }
    · intro x hx
      rcases hmem x hx with hx | ⟨id, hx⟩
      · exact h.queued x hx
      · exact h.known id x hx
    · intro w' hw'
      by_cases e2 : w' = w
      · subst e2; simp only [set_eq]
      · simp only [set_ne _ _ e2] at hw' ⊢; exact h.idle w' hw'
    · intro w' j hw'
      by_cases e2 : w' = w
      · subst e2; simp only [set_eq] at hw'; simp at hw'
      · simp only [set_ne _ _ e2] at hw' ⊢; exact h.run w' j hw'
    · intro w' j hw'
      by_cases e2 : w' = w
      · subst e2; simp only [set_eq] at hw'; simp at hw'
      · simp only [set_ne _ _ e2] at hw' ⊢; exact h.post w' j hw'
    · intro j hj
      apply h.free j
      intro w' hw'
      have e2 : w' ≠ w := by rintro rfl; rw [hph] at hw'; simp at hw'
      apply hj w'
      simp only [set_ne _ _ e2]
      exact hw'
    · intro j hj hr hqq
      rcases h.wake j hj hr hqq with hx | hn
      · left
        apply aw _ hx
        rintro rfl
        simp only [S.pending]
        rw [(h.ring j).1.getElements_eq]
        have := List.length_pos_iff.2 hqq
        simpa using this
      · obtain ⟨w', hw', en', h1, h2⟩ := hn
        by_cases e2 : w' = w
        · subst e2
          left
          rw [hph] at hw'
          have ekj : k = j := by
            rcases hw' with hw' | hw'
            · simp at hw'
            · injection hw'
          subst ekj
          rw [ha] at h1
          have e4 : en' = en := by
            rcases h1 with ⟨o, h1⟩ | h1
            · simp at h1
            · injection h1 with h1; exact h1.symm
          subst e4
          apply told (k + 1) (by simpa using hr)
          rw [hids]
          have h2' : ((k + 1 : Nat) : Int) ∈ en' := by simpa using h2
          split
          · exact List.mem_append_left _ h2'
          · exact h2'
        · right
          refine ⟨w', ?_, en', ?_, h2⟩
          · simp only [set_ne _ _ e2]; exact hw'
          · simp only [set_ne _ _ e2]; exact h1
    · intro hr
      by_cases hk0 : k = 0
      · apply told 0 (by simpa using hr)
        rw [hids, if_pos hk0]
        simp
      · exact aw 0 (h.head hr) (fun e => absurd e.symm hk0)
  all_goals
    simp only [hph]
    exact ⟨s, .quiet, rfl, h.quiet⟩

/-! ### Steps inside `processFrame` -/

theorem good_other {last : Nat} {ring ring' : Nat → Ring α} {g g' : Ghost α} {j : Nat} {a : Act}
    (h : Good last ring g j a) (hc : g'.c j = g.c j)
    (ho : ∀ i, j = i + 1 → (ring' i).front = (ring i).front ∧ ((g.t i).q ≠ [] → (g'.t i).q ≠ []))
    (hd : j ≠ last → (ring' j).rear = (ring j).rear ∧
      ((g.t j).q.length < (g.t j).cap → (g'.t j).q.length < (g'.t j).cap)) : Good last ring' g' j a := by
  have org : ∀ o, HasOrigin ring g j o → HasOrigin ring' g' j o := by
    intro o h1
    rcases j with _ | i
    · exact h1
    · obtain ⟨e1, e2⟩ := ho i rfl
      exact ⟨by rw [e1]; exact h1.1, e2 h1.2⟩
  have dst : ∀ d, HasDest last ring g j d → HasDest last ring' g' j d := by
    intro d h1
    unfold HasDest at h1 ⊢
    by_cases e : j = last
    · rw [if_pos e] at h1 ⊢; exact h1
    · rw [if_neg e] at h1 ⊢
      obtain ⟨e1, e2⟩ := hd e
      exact ⟨by rw [e1]; exact h1.1, e2 h1.2⟩
  rcases a with _ | _ | o | ⟨o, d⟩ | ⟨o, en⟩ | en
  · exact h
  · exact hc.trans h
  · exact ⟨hc.trans h.1, org o h.2⟩
  · exact ⟨hc.trans h.1, org o h.2.1, dst d h.2.2⟩
  · exact ⟨hc.trans h.1, org o h.2⟩
  · exact hc.trans h

/-- A worker goes on with its filter. -/
theorem goes_on (h : Inv c m0 s g outs) {w k : Nat} (hph : s.pool.ph w = .run k) {a : Act}
    {ring' : Nat → Ring α} {mem' : Nat → σ} {g' : Ghost α} {o : Out α}
    (hgood : Good c.last ring' g' k a)
    (hother : ∀ j b, j ≠ k → Good c.last s.ring g j b → Good c.last ring' g' j b)
    (hc : ∀ j, j ≠ k → g'.c j = g.c j)
    (hring : ∀ j, Rel (ring' j) (g'.t j) ∧ 3 ≤ (ring' j).max)
    (hfront : ∀ j, g'.c (j + 1) = true → (g'.t j).q ≠ [])
    (hhist : ∀ j, j < c.last → (seen (j + 1) (outs ++ [o]) ++ g'.rest j).Sublist (made j (outs ++ [o])) ∧
      (made j (outs ++ [o])).length = (seen (j + 1) (outs ++ [o]) ++ g'.rest j).length + (g'.t j).lost)
    (hmem : ∀ j, 0 < j → j ≤ c.last → (feed (c.work j) (m0 j) (seen j (outs ++ [o]))).1 = mem' j ∧
      (j < c.last → (feed (c.work j) (m0 j) (seen j (outs ++ [o]))).2 = made j (outs ++ [o])))
    (hwake : ∀ j, (g'.t j).q ≠ [] → (g.t j).q ≠ [] ∨
      (j = k ∧ ∃ o' en, a = .worked o' en ∧ ((k : Int) + 1) ∈ en))
    (hkeep : ∀ en, ((∃ o, s.act w = .worked o en) ∨ s.act w = .fin en) →
      ((∃ o, a = .worked o en) ∨ a = .fin en)) :
    Inv c m0 { s with ring := ring', mem := mem', act := Pool.set s.act w a } g' (outs ++ [o]) := by
  have hex : ∀ w', w' ≠ w → ∀ j, s.pool.ph w' = .run j → j ≠ k := by
    rintro w' hw j hj rfl
    exact hw (h.pinv.excl _ _ _ hj hph)
  refine { pinv := h.pinv, ident := h.ident, freed := h.freed, queued := h.queued, known := h.known,
           idle := ?_, run := ?_, post := ?_, free := ?_, ring := hring, front := hfront,
           hist := hhist, mem := hmem, wake := ?_, head := h.head }
  · intro w' hw'
    have e : w' ≠ w := by rintro rfl; simp only [hph] at hw'; simp at hw'
    simp only [set_ne _ _ e]; exact h.idle w' hw'
  · intro w' j hw'
    by_cases e : w' = w
    · subst e
      simp only [hph] at hw'
      injection hw' with hw'
      subst hw'
      simp only [set_eq]
      exact ⟨(h.run w' k hph).1, hgood⟩
    · simp only [set_ne _ _ e]
      exact ⟨(h.run w' j hw').1, hother j _ (hex w' e j hw') (h.run w' j hw').2⟩
  · intro w' j hw'
    have e : w' ≠ w := by rintro rfl; simp only [hph] at hw'; simp at hw'
    simp only [set_ne _ _ e]; exact h.post w' j hw'
  · intro j hj
    have e : j ≠ k := by rintro rfl; exact hj w hph
    rw [hc j e]
    exact h.free j hj
  · intro j hj hr hq
    rcases hwake j hq with hq | ⟨e, o', en, ha, hen⟩
    · refine (h.wake j hj hr hq).imp id (fun hn => ?_)
      obtain ⟨w', hw', en, h1, h2⟩ := hn
      refine ⟨w', hw', en, ?_, h2⟩
      by_cases e : w' = w
      · subst e; simp only [set_eq]; exact hkeep en h1
      · simp only [set_ne _ _ e]; exact h1
    · subst e
      right
      exact ⟨w, Or.inl hph, en, Or.inl ⟨o', by simp only [set_eq]; exact ha⟩, hen⟩

theorem hist_quiet (h : Inv c m0 s g outs) : ∀ j, j < c.last →
    (seen (j + 1) (outs ++ [Out.quiet]) ++ g.rest j).Sublist (made j (outs ++ [Out.quiet])) ∧
      (made j (outs ++ [Out.quiet])).length =
        (seen (j + 1) (outs ++ [Out.quiet]) ++ g.rest j).length + (g.t j).lost := by
  simpa [seen_append, made_append, seen, made] using h.hist

theorem mem_quiet (h : Inv c m0 s g outs) : ∀ j, 0 < j → j ≤ c.last →
    (feed (c.work j) (m0 j) (seen j (outs ++ [Out.quiet]))).1 = s.mem j ∧
      (j < c.last → (feed (c.work j) (m0 j) (seen j (outs ++ [Out.quiet]))).2 = made j (outs ++ [Out.quiet])) := by
  simpa [seen_append, made_append, seen, made] using h.mem

theorem step_look (h : Inv c m0 s g outs) (w : Nat) :
    ∃ s' o, s.step c (.look w) = .ok (s', o) ∧ Inv c m0 s' g (outs ++ [o]) := by
  unfold S.step
  rcases hph : s.pool.ph w with _ | k | k <;> rcases ha : s.act w with _ | _ | _ | _ | _ | en <;>
    simp only [hph, ha]
  case run.start =>
    obtain ⟨hk, hg⟩ := h.run w k hph
    rw [ha] at hg
    have hck : g.c k = false := hg
    have main : ∀ a, Good c.last s.ring g k a →
        Inv c m0 { s with act := Pool.set s.act w a } g (outs ++ [.quiet]) := by
      intro a hga
      exact goes_on h hph (mem' := s.mem) hga (fun _ _ _ hb => hb) (fun _ _ => rfl) h.ring h.front
        (hist_quiet h) (mem_quiet h) (fun _ hq => Or.inl hq) (by rw [ha]; simp)
    refine ⟨_, _, rfl, ?_⟩
    rcases k with _ | j
    · exact main _ ⟨hck, rfl⟩
    · simp only [S.look]
      rcases hq : (g.t j).q with _ | ⟨x, q⟩
      · have : (s.ring j).getFront = none := by
          unfold Ring.getFront; rw [if_pos ((h.ring j).1.empty_iff.2 hq)]
        rw [this]
        exact main _ hck
      · rw [((h.ring j).1.take x q hq).1]
        exact main _ ⟨hck, rfl, by rw [hq]; simp⟩
  all_goals exact ⟨s, .quiet, rfl, h.quiet⟩

theorem step_slot (h : Inv c m0 s g outs) (w : Nat) :
    ∃ s' o g', s.step c (.slot w) = .ok (s', o) ∧ Inv c m0 s' g' (outs ++ [o]) := by
  unfold S.step
  rcases hph : s.pool.ph w with _ | k | k <;> rcases ha : s.act w with _ | _ | o | _ | _ | en <;>
    simp only [hph, ha]
  case run.origin =>
    obtain ⟨hk, hg⟩ := h.run w k hph
    rw [ha] at hg
    obtain ⟨hck, horg⟩ := hg
    unfold S.slot
    by_cases hl : k = c.last
    · rw [if_pos hl]
      refine ⟨_, _, g, rfl, ?_⟩
      refine goes_on h hph (mem' := s.mem) ⟨hck, horg, ?_⟩ (fun _ _ _ hb => hb) (fun _ _ => rfl) h.ring h.front
        (hist_quiet h) (mem_quiet h) (fun _ hq => Or.inl hq) (by rw [ha]; simp)
      unfold HasDest; rw [if_pos hl]
    · rw [if_neg hl]
      obtain ⟨hrel, hmax⟩ := h.ring k
      obtain ⟨r', hr', hrel', hroom, hsl, hfr, hm⟩ := hrel.writerSlot_true
      rw [hr']
      simp only [Outcome.bind_ok]
      have hcap := hrel.hcap
      have hq' : (g.t k).q ≠ [] → ((g.t k).makeRoom).q ≠ [] := by
        intro hne
        unfold FrameQueue.Spec.makeRoom
        split
        · exact hne
        · intro hcon
          have := congrArg List.length hcon
          simp at this
          omega
      have hqi : ((g.t k).makeRoom).q ≠ [] → (g.t k).q ≠ [] := by
        intro hne hcon
        unfold FrameQueue.Spec.makeRoom at hne
        split at hne
        · exact hne hcon
        · rw [hcon] at hne; simp at hne
      refine ⟨_, _, { g with t := Pool.set g.t k (g.t k).makeRoom }, rfl, ?_⟩
      refine goes_on h hph (mem' := s.mem) ⟨hck, ?_, ?_⟩ ?_ (fun _ _ => rfl) ?_ ?_ ?_ (mem_quiet h) ?_
        (by rw [ha]; simp)
      · rcases k with _ | j
        · exact horg
        · have e : j ≠ j + 1 := by omega
          exact ⟨by simp only [set_ne _ _ e]; exact horg.1, by simp only [set_ne _ _ e]; exact horg.2⟩
      · unfold HasDest; rw [if_neg hl]
        simp only [set_eq]
        exact ⟨trivial, hroom⟩
      · intro j b hj hb
        refine good_other hb rfl ?_ ?_
        · rintro i rfl
          by_cases e : i = k
          · subst e; simp only [set_eq]; exact ⟨hfr, hq'⟩
          · simp only [set_ne _ _ e]; exact ⟨trivial, id⟩
        · intro _; simp only [set_ne _ _ hj]; exact ⟨trivial, id⟩
      · intro j
        by_cases e : j = k
        · subst e; simp only [set_eq]; exact ⟨hrel', by omega⟩
        · simp only [set_ne _ _ e]; exact h.ring j
      · intro j hj
        by_cases e : j = k
        · subst e; simp only [set_eq]; exact hq' (h.front j hj)
        · simp only [set_ne _ _ e]; exact h.front j hj
      · intro j hj
        by_cases e : j = k
        · subst e
          have hh := hist_quiet h j hj
          simp only [Ghost.rest, set_eq] at hh ⊢
          unfold FrameQueue.Spec.makeRoom
          by_cases hc : (g.t j).q.length < (g.t j).cap
          · rw [if_pos hc]; exact hh
          · rw [if_neg hc]
            simp only
            have ht : (if g.c (j + 1) = true then (g.t j).q.dropLast.tail else (g.t j).q.dropLast) =
                (if g.c (j + 1) = true then (g.t j).q.tail else (g.t j).q).dropLast := by
              split
              · rw [List.tail_dropLast]
              · rfl
            rw [ht]
            have hpos : 0 < (if g.c (j + 1) = true then (g.t j).q.tail else (g.t j).q).length := by
              split
              · rw [List.length_tail]; omega
              · omega
            refine ⟨(List.Sublist.append_left (List.dropLast_sublist _) _).trans hh.1, ?_⟩
            rw [hh.2, List.length_append, List.length_append, List.length_dropLast]
            omega
        · have hh := hist_quiet h j hj
          simp only [Ghost.rest, set_ne _ _ e] at hh ⊢
          exact hh
      · intro j hq
        left
        by_cases e : j = k
        · subst e; simp only [set_eq] at hq; exact hqi hq
        · simp only [set_ne _ _ e] at hq; exact hq
  all_goals exact ⟨s, .quiet, g, rfl, h.quiet⟩

theorem seen_ran (k j : Nat) (x y : Option α) :
    seen j [Out.ran k x y] = if k = j then x.toList else [] := by
  rcases x with _ | x
  · simp [seen]
  · simp only [seen]; split <;> rfl

theorem made_ran (k j : Nat) (x y : Option α) :
    made j [Out.ran k x y] = if k = j then y.toList else [] := by
  rcases y with _ | y
  · simp [made]
  · simp only [made]; split <;> rfl

/-- What a run of `doProcessFrame` of filter `k` makes of the frame in front of it. -/
def Processes (c : Chain σ α) (s : S σ α) (g : Ghost α) (k : Nat) (x y : Option α) (mem' : Nat → σ) : Prop :=
  match k with
  | 0 => x = none ∧ mem' = s.mem
  | j + 1 => ∃ v q, (g.t j).q = v :: q ∧ x = some v ∧ y = (c.work (j + 1) (s.mem (j + 1)) v).2 ∧
      mem' = Pool.set s.mem (j + 1) (c.work (j + 1) (s.mem (j + 1)) v).1

theorem commit_inv (h : Inv c m0 s g outs) {w k : Nat} {o d : Option Nat} (hph : s.pool.ph w = .run k)
    (ha : s.act w = .both o d) {x y : Option α} {mem' : Nat → σ} (hp : Processes c s g k x y mem') :
    ∃ s' out g', ({ s with mem := mem' } : S σ α).commit w k o d x y = .ok (s', out) ∧
      Inv c m0 s' g' (outs ++ [out]) := by
  obtain ⟨hk, hg⟩ := h.run w k hph
  rw [ha] at hg
  obtain ⟨hck, horg, hdst⟩ := hg
  have hkeep : ∀ (a : Act) (en : List Int), ((∃ o, s.act w = .worked o en) ∨ s.act w = .fin en) →
      ((∃ o, a = .worked o en) ∨ a = .fin en) := by rw [ha]; simp
  -- the memory of the filters
  have hmem : ∀ y', (k < c.last → y' = y) → ∀ j, 0 < j → j ≤ c.last →
      (feed (c.work j) (m0 j) (seen j (outs ++ [.ran k x y']))).1 = mem' j ∧
      (j < c.last → (feed (c.work j) (m0 j) (seen j (outs ++ [.ran k x y']))).2 =
        made j (outs ++ [.ran k x y'])) := by
    intro y' hy' j hj hjl
    obtain ⟨m1, m2⟩ := h.mem j hj hjl
    rw [seen_append, made_append, seen_ran, made_ran]
    by_cases e : k = j
    · subst e
      rw [if_pos rfl, if_pos rfl]
      rcases k with _ | i
      · omega
      · obtain ⟨v, q, hq, rfl, rfl, rfl⟩ := hp
        rw [feed_append]
        simp only [set_eq, Option.toList_some, feed, List.append_nil, m1, true_and]
        intro hl
        rw [m2 hl, hy' hl]
    · rw [if_neg e, if_neg e, List.append_nil, List.append_nil]
      refine ⟨?_, m2⟩
      rw [m1]
      rcases k with _ | i
      · rw [hp.2]
      · obtain ⟨v, q, hq, rfl, rfl, rfl⟩ := hp
        rw [set_ne _ _ (Ne.symm e)]
  -- the queue before the filter
  have hbefore : ∀ j, j ≠ k → ∀ y', j < c.last →
      (seen (j + 1) (outs ++ [Out.ran k x y']) ++ (if (Pool.set g.c k true) (j + 1) = true then (g.t j).q.tail else (g.t j).q)).Sublist
        (made j (outs ++ [Out.ran k x y'])) ∧
      (made j (outs ++ [Out.ran k x y'])).length =
        (seen (j + 1) (outs ++ [Out.ran k x y']) ++ (if (Pool.set g.c k true) (j + 1) = true then (g.t j).q.tail else (g.t j).q)).length
          + (g.t j).lost := by
    intro j e y' hj
    have hh := h.hist j hj
    rw [seen_append, made_append, seen_ran, made_ran, if_neg (Ne.symm e), List.append_nil]
    by_cases e2 : k = j + 1
    · subst e2
      obtain ⟨v, q, hq, rfl, rfl, rfl⟩ := hp
      rw [if_pos rfl]
      simp only [Ghost.rest, hck, Bool.false_eq_true, if_false, hq] at hh
      simp only [set_eq, if_true, hq, List.tail_cons, Option.toList_some, List.append_assoc,
        List.singleton_append]
      exact hh
    · rw [if_neg e2, List.append_nil, set_ne _ _ (Ne.symm e2)]
      exact hh
  have hfrontk : ∀ j, Pool.set g.c k true (j + 1) = true → (g.t j).q ≠ [] := by
    intro j hj
    by_cases e2 : j + 1 = k
    · subst e2
      obtain ⟨v, q, hq, _⟩ := hp
      rw [hq]; simp
    · rw [set_ne _ _ e2] at hj; exact h.front j hj
  -- nothing committed
  have nothing : (k < c.last → y = none) → ∃ s' out g', (Outcome.ok (({ s with mem := mem', act := Pool.set s.act w (.worked o []) } : S σ α), Out.ran k x none)) = .ok (s', out) ∧
      Inv c m0 s' g' (outs ++ [out]) := by
    intro hy
    refine ⟨_, _, { g with c := Pool.set g.c k true }, rfl, ?_⟩
    refine goes_on h hph (ring' := s.ring) (mem' := mem') ⟨set_eq _ _ _, ?_⟩ ?_ (fun j hj => set_ne _ _ hj) h.ring hfrontk ?_
      (hmem none fun hl => (hy hl).symm) (fun _ hq => Or.inl hq) (hkeep _)
    · rcases k with _ | i
      · exact horg
      · exact horg
    · intro j b hj hb
      exact good_other hb (set_ne _ _ hj) (fun i _ => ⟨rfl, id⟩) (fun _ => ⟨rfl, id⟩)
    · intro j hj
      by_cases e : j = k
      · subst e
        have hh := h.hist j hj
        rw [seen_append, made_append, seen_ran, made_ran, if_neg (by omega)]
        simp only [Option.toList_none, ite_self, List.append_nil]
        have e2 : j + 1 ≠ j := by omega
        simp only [Ghost.rest, set_ne _ _ e2] at hh ⊢
        exact hh
      · exact hbefore j e none hj
  unfold S.commit
  unfold HasDest at hdst
  by_cases hl : k = c.last
  · rw [if_pos hl] at hdst
    subst hdst
    exact nothing (by omega)
  · rw [if_neg hl] at hdst
    obtain ⟨rfl, hroom⟩ := hdst
    rcases y with _ | v
    · exact nothing fun _ => rfl
    · obtain ⟨hrel, hmax⟩ := h.ring k
      obtain ⟨r', hr', hrel'⟩ := hrel.put hroom v
      have hsame : r'.front = (s.ring k).front ∧ r'.max = (s.ring k).max := by
        unfold Ring.addFrame at hr'
        have e1 : ((s.ring k).write (s.ring k).rear v).max = (s.ring k).max := rfl
        rw [e1, if_neg (by omega)] at hr'
        split at hr' <;> (simp at hr'; subst hr'; exact ⟨rfl, rfl⟩)
      simp only [hr', Outcome.bind_ok]
      refine ⟨_, _, { t := Pool.set g.t k { g.t k with q := (g.t k).q ++ [v] }, c := Pool.set g.c k true }, rfl, ?_⟩
      refine goes_on h hph (mem' := mem') ⟨set_eq _ _ _, ?_⟩ ?_ (fun j hj => set_ne _ _ hj) ?_ ?_ ?_
        (hmem (some v) fun _ => rfl) ?_ (hkeep _)
      · rcases k with _ | j
        · exact horg
        · have e : j ≠ j + 1 := by omega
          exact ⟨by simp only [set_ne _ _ e]; exact horg.1, by simp only [set_ne _ _ e]; exact horg.2⟩
      · intro j b hj hb
        refine good_other hb (set_ne _ _ hj) ?_ ?_
        · rintro i rfl
          by_cases e : i = k
          · subst e; simp only [set_eq]; exact ⟨hsame.1, by simp⟩
          · simp only [set_ne _ _ e]; exact ⟨trivial, id⟩
        · intro _; simp only [set_ne _ _ hj]; exact ⟨trivial, id⟩
      · intro j
        by_cases e : j = k
        · subst e; simp only [set_eq]; exact ⟨hrel', by omega⟩
        · simp only [set_ne _ _ e]; exact h.ring j
      · intro j hj
        by_cases e : j = k
        · subst e; simp only [set_eq]; simp
        · simp only [set_ne _ _ e]; exact hfrontk j hj
      · intro j hj
        by_cases e : j = k
        · subst e
          have hh := h.hist j hj
          have e2 : j + 1 ≠ j := by omega
          rw [seen_append, made_append, seen_ran, made_ran, if_neg (Ne.symm e2), if_pos rfl, List.append_nil]
          simp only [Ghost.rest, set_ne _ _ e2, set_eq, Option.toList_some] at hh ⊢
          have ht : (if g.c (j + 1) = true then ((g.t j).q ++ [v]).tail else (g.t j).q ++ [v]) =
              (if g.c (j + 1) = true then (g.t j).q.tail else (g.t j).q) ++ [v] := by
            split
            · rename_i hc
              rcases hq : (g.t j).q with _ | ⟨z, q⟩
              · exact absurd hq (h.front j hc)
              · rfl
            · rfl
          rw [ht, ← List.append_assoc]
          refine ⟨List.Sublist.append hh.1 (List.Sublist.refl _), ?_⟩
          rw [List.length_append, hh.2, List.length_append (bs := [v])]
          simp only [List.length_cons, List.length_nil]
          omega
        · have := hbefore j e (some v) hj
          simp only [Ghost.rest, set_ne _ _ e]
          exact this
      · intro j hq
        by_cases e : j = k
        · subst e; exact Or.inr ⟨rfl, o, _, rfl, by simp⟩
        · simp only [set_ne _ _ e] at hq; exact Or.inl hq

theorem step_work (h : Inv c m0 s g outs) (w : Nat) (x : Option α) :
    ∃ s' o g', s.step c (.work w x) = .ok (s', o) ∧ Inv c m0 s' g' (outs ++ [o]) := by
  unfold S.step
  rcases hph : s.pool.ph w with _ | k | k <;> rcases ha : s.act w with _ | _ | _ | ⟨o, d⟩ | _ | en <;>
    simp only [hph, ha]
  case run.both =>
    obtain ⟨hk, hg⟩ := h.run w k hph
    rw [ha] at hg
    obtain ⟨hck, horg, hdst⟩ := hg
    unfold S.work
    rcases k with _ | j
    · exact commit_inv h hph ha (mem' := s.mem) ⟨rfl, rfl⟩
    · obtain ⟨rfl, hne⟩ := horg
      rcases hq : (g.t j).q with _ | ⟨v, q⟩
      · exact absurd hq hne
      · have hv := ((h.ring j).1.take v q hq).2.1
        simp only [hv]
        exact commit_inv h hph ha ⟨v, q, hq, rfl, rfl, rfl⟩
  all_goals exact ⟨s, .quiet, g, rfl, h.quiet⟩

theorem step_drop (h : Inv c m0 s g outs) (w : Nat) :
    ∃ s' o g', s.step c (.drop w) = .ok (s', o) ∧ Inv c m0 s' g' (outs ++ [o]) := by
  unfold S.step
  rcases hph : s.pool.ph w with _ | k | k <;> rcases ha : s.act w with _ | _ | _ | _ | ⟨o, en⟩ | en <;>
    simp only [hph, ha]
  case run.worked =>
    obtain ⟨hk, hg⟩ := h.run w k hph
    rw [ha] at hg
    obtain ⟨hck, horg⟩ := hg
    have hkeep : ∀ en', ((∃ o', Act.worked o en = .worked o' en') ∨ Act.worked o en = .fin en') →
        ((∃ o', Act.fin en = .worked o' en') ∨ Act.fin en = .fin en') := by simp
    unfold S.drop
    rcases k with _ | i
    · refine ⟨_, _, { g with c := Pool.set g.c 0 false }, rfl, ?_⟩
      refine goes_on h hph (mem' := s.mem) (show Pool.set g.c 0 false 0 = false from set_eq _ _ _) ?_ (fun j hj => set_ne _ _ hj) h.ring ?_ ?_ (mem_quiet h)
        (fun _ hq => Or.inl hq) (by rw [ha]; exact hkeep)
      · intro j b hj hb
        exact good_other hb (set_ne _ _ hj) (fun i _ => ⟨rfl, id⟩) (fun _ => ⟨rfl, id⟩)
      · intro j hj
        have e : j + 1 ≠ 0 := by omega
        simp only [set_ne _ _ e] at hj
        exact h.front j hj
      · intro j hj
        have e : j + 1 ≠ 0 := by omega
        have hh := hist_quiet h j hj
        simp only [Ghost.rest, set_ne _ _ e] at hh ⊢
        exact hh
    · obtain ⟨_, hne⟩ := horg
      obtain ⟨hrel, hmax⟩ := h.ring i
      rcases hq : (g.t i).q with _ | ⟨v, q⟩
      · exact absurd hq hne
      · obtain ⟨_, _, r', hr', _, hre, _, hrel'⟩ := hrel.take v q hq
        have hm : r'.max = (s.ring i).max := by
          have h1 := hrel'.hcap; have h2 := hrel.hcap; simp only at h1; omega
        simp only [hr', Outcome.bind_ok]
        refine ⟨_, _, { t := Pool.set g.t i { g.t i with q := q, last := v }, c := Pool.set g.c (i + 1) false }, rfl, ?_⟩
        refine goes_on h hph (mem' := s.mem) (show Pool.set g.c _ false _ = false from set_eq _ _ _) ?_ (fun j hj => set_ne _ _ hj) ?_ ?_ ?_ (mem_quiet h)
          ?_ (by rw [ha]; exact hkeep)
        · intro j b hj hb
          refine good_other hb (set_ne _ _ hj) ?_ ?_
          · rintro i' rfl
            have e : i' ≠ i := by rintro rfl; exact hj rfl
            simp only [set_ne _ _ e]; exact ⟨trivial, id⟩
          · intro _
            by_cases e : j = i
            · subst e
              simp only [set_eq]
              refine ⟨hre, ?_⟩
              intro hlt
              rw [hq, List.length_cons] at hlt
              omega
            · simp only [set_ne _ _ e]; exact ⟨trivial, id⟩
        · intro j
          by_cases e : j = i
          · subst e; simp only [set_eq]; exact ⟨hrel', by omega⟩
          · simp only [set_ne _ _ e]; exact h.ring j
        · intro j hj
          by_cases e : j = i
          · subst e; simp only [set_eq] at hj; simp at hj
          · have e2 : j + 1 ≠ i + 1 := by omega
            simp only [set_ne _ _ e2, set_ne _ _ e] at hj ⊢
            exact h.front j hj
        · intro j hj
          have hh := hist_quiet h j hj
          by_cases e : j = i
          · subst e
            simp only [Ghost.rest, set_eq, hck, if_true, hq, List.tail_cons, Bool.false_eq_true, if_false] at hh ⊢
            exact hh
          · have e2 : j + 1 ≠ i + 1 := by omega
            simp only [Ghost.rest, set_ne _ _ e2, set_ne _ _ e] at hh ⊢
            exact hh
        · intro j hj
          left
          by_cases e : j = i
          · subst e; rw [hq]; simp
          · simp only [set_ne _ _ e] at hj; exact hj
  all_goals exact ⟨s, .quiet, g, rfl, h.quiet⟩

theorem step_inv (h : Inv c m0 s g outs) (op : Op α) :
    ∃ s' o g', s.step c op = .ok (s', o) ∧ Inv c m0 s' g' (outs ++ [o]) := by
  cases op with
  | add k => obtain ⟨s', o, h1, h2⟩ := step_add h k; exact ⟨s', o, g, h1, h2⟩
  | pick w now => obtain ⟨s', o, h1, h2⟩ := step_pick h w now; exact ⟨s', o, g, h1, h2⟩
  | look w => obtain ⟨s', o, h1, h2⟩ := step_look h w; exact ⟨s', o, g, h1, h2⟩
  | slot w => exact step_slot h w
  | work w x => exact step_work h w x
  | drop w => exact step_drop h w
  | done w t => obtain ⟨s', o, h1, h2⟩ := step_done h w t; exact ⟨s', o, g, h1, h2⟩
  | post w => obtain ⟨s', o, h1, h2⟩ := step_post h w; exact ⟨s', o, g, h1, h2⟩

end

theorem init_inv (c : Chain σ α) (size : Nat → Nat) (hs : ∀ k, 3 ≤ size k) (d : Nat → Nat → α)
    (m : Nat → σ) (time : Nat → Nat) : ∃ g, Inv c m (S.init size d m time) g [] := by
  refine ⟨{ t := fun k => FrameQueue.Spec.init (size k) (d k), c := fun _ => false }, ?_⟩
  refine { pinv := Pool.init_inv _ _, ident := fun _ => rfl, freed := fun _ => rfl, queued := ?_, known := ?_,
           idle := fun _ _ => rfl, run := ?_, post := ?_, free := fun _ _ => rfl, ring := ?_, front := ?_,
           hist := ?_, mem := ?_, wake := ?_, head := ?_ }
  · simp [S.init, P.init, Pool.TQ.init]
  · simp [S.init, P.init]
  · simp [S.init, P.init]
  · simp [S.init, P.init]
  · intro k
    refine ⟨FrameQueue.create_rel _ (by have := hs k; omega) _, ?_⟩
    have := hs k
    show 3 ≤ (if size k > 250 then 250 else size k)
    by_cases h : size k > 250
    · rw [if_pos h]; omega
    · rw [if_neg h]; exact this
  · simp
  · intro k _
    simp [seen, made, Ghost.rest, FrameQueue.Spec.init]
  · intro k _ _
    simp [seen, made, feed, S.init]
  · simp [S.init, P.init]
  · simp [S.init, P.init]

theorem run_inv {c : Chain σ α} {m0 : Nat → σ} (ops : List (Op α)) :
    ∀ {s : S σ α} {g : Ghost α} {outs : List (Out α)}, Inv c m0 s g outs →
    ∃ s' os g', runOps (S.step c) s ops = .ok (s', os) ∧ Inv c m0 s' g' (outs ++ os) := by
  induction ops with
  | nil => intro s g outs h; exact ⟨s, [], g, rfl, by simpa using h⟩
  | cons op ops ih =>
    intro s g outs h
    obtain ⟨s1, o, g1, h1, h2⟩ := step_inv h op
    obtain ⟨s2, os, g2, h3, h4⟩ := ih h2
    refine ⟨s2, o :: os, g2, by simp [runOps, h1, h3], by simpa using h4⟩

end Lms.Flow
