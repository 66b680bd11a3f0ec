import Verif.Net.Spec

/-! The invariant of a network and the effect of every step on it. -/

namespace Lms.Net

open Pool (P set_ne Awake)
open FrameQueue (Ring)
open SharedReader (Rd Rel)
open Flow (set_eq none_freed pushAll_total pushBack_mem pushAll_mem pick_total)

variable {α : Type}

theorem handled_append (q k : Nat) (a b : List (Out α)) :
    handled q k (a ++ b) = handled q k a ++ handled q k b := by
  induction a with
  | nil => rfl
  | cons o a ih =>
    cases o with
    | ran k' xs | skipped k' xs =>
      simp only [List.cons_append, handled]
      split
      · rw [ih, List.append_assoc]
      · exact ih
    | _ => simpa [handled] using ih

theorem made_append (q : Nat) (a b : List (Out α)) : made q (a ++ b) = made q a ++ made q b := by
  induction a with
  | nil => rfl
  | cons o a ih =>
    cases o with
    | put q' y =>
      simp only [List.cons_append, made]
      split
      · rw [ih]; rfl
      · exact ih
    | _ => simpa [made] using ih

/-- What the abstract queues are, and in which a filter has dealt with the frame in front but has not yet
released it. -/
structure Ghost (α : Type) where
  t : Nat → SharedReader.Spec α
  c : Nat → Nat → Bool

/-- The queues whose front frame a worker has in hand. -/
def Act.held : Act α → List Nat
  | .look _ got | .slots _ got _ | .commit _ got _ => got.map Prod.fst
  | .drop todo _ => todo
  | _ => []

/-- The readers a worker has still to ask. -/
def Act.asks : Act α → List Nat
  | .look todo _ => todo
  | _ => []

/-- The frames a worker has got and not yet processed. -/
def Act.origins : Act α → List (Nat × Nat)
  | .look _ got | .slots _ got _ => got
  | _ => []

/-- The slots a worker has got to fill. -/
def Act.dests : Act α → List (Nat × Nat)
  | .slots _ _ ds => ds
  | .commit todo _ _ => todo.map fun x => (x.1, x.2.1)
  | _ => []

/-- The writers a worker has still to ask. -/
def Act.offers : Act α → List Nat
  | .slots todo _ _ => todo
  | _ => []

/-- The queues whose front frame has been dealt with. -/
def Act.claimed : Act α → List Nat
  | .commit _ got _ => got.map Prod.fst
  | .drop todo _ => todo
  | _ => []

/-- Filter `k` has been told of the frame in front of queue `q` and has not released it. -/
def Ghost.Holds (gh : Ghost α) (q k : Nat) : Prop := (gh.t q).active = true ∧ k ∈ (gh.t q).hold

/-- What holds of a worker running filter `k`. -/
structure Good (g : Graph) (rd : Nat → Rd α) (gh : Ghost α) (k : Nat) (a : Act α) : Prop where
  busy : a ≠ .out
  held : ∀ q ∈ a.held, q ∈ g.ins k ∧ gh.Holds q k
  only : ∀ q, gh.Holds q k → q ∈ a.held
  once : a.held.Nodup
  asks : ∀ q ∈ a.asks, q ∈ g.ins k
  org : ∀ x ∈ a.origins, x.2 = (rd x.1).ring.front
  dst : ∀ x ∈ a.dests, x.1 ∈ g.outs k ∧ x.2 = (rd x.1).ring.rear ∧ (gh.t x.1).q.q.length < (gh.t x.1).q.cap
  dOnce : (a.dests.map Prod.fst ++ a.offers).Nodup
  offers : ∀ q ∈ a.offers, q ∈ g.outs k
  claim : ∀ q, gh.c q k = decide (q ∈ a.claimed)

/-- Filter `k` has dealt with the frame in front of queue `q`. -/
def Ghost.Past (gh : Ghost α) (q k : Nat) : Prop :=
  (gh.t q).active = true ∧ k ∉ (gh.t q).todo ∧ (k ∈ (gh.t q).hold → gh.c q k = true)

instance (gh : Ghost α) (q k : Nat) : Decidable (gh.Past q k) := by unfold Ghost.Past; infer_instance

/-- The frames in a queue that filter `k` has not dealt with. -/
def Ghost.rest (gh : Ghost α) (q k : Nat) : List α := if gh.Past q k then (gh.t q).q.q.tail else (gh.t q).q.q

/-- The invariant; `L q k` when filter `k` need not yet have been woken for the frames in queue `q`. -/
structure InvL (L : Nat → Nat → Prop) (g : Graph) (s : S α) (gh : Ghost α) (outs : List (Out α)) : Prop where
  pinv : Pool.Inv s.pool
  ident : ∀ k : Nat, s.pool.ident k = (k : Int)
  freed : ∀ k, s.pool.freed k = false
  idle : ∀ w, s.pool.ph w = .idle → s.act w = .out
  run : ∀ w k, s.pool.ph w = .run k → Good g s.rd gh k (s.act w)
  post : ∀ w k, s.pool.ph w = .post k → ∃ en, s.act w = .drop [] en
  free : ∀ k, (∀ w, s.pool.ph w ≠ .run k) → ∀ q, gh.c q k = false ∧ ¬ gh.Holds q k
  rd : ∀ q, Rel (s.rd q) (gh.t q) ∧ 3 ≤ (s.rd q).ring.max
  members : ∀ q, (gh.t q).members = g.dst q
  hist : ∀ q k, k ∈ g.dst q → (handled q k outs ++ gh.rest q k).Sublist (made q outs) ∧
    (made q outs).length = (handled q k outs ++ gh.rest q k).length + (gh.t q).q.lost
  same : ∀ q, ∀ k ∈ g.dst q, ∀ j ∈ g.dst q, handled q k outs ++ gh.rest q k = handled q j outs ++ gh.rest q j
  wake : ∀ q k, q ∈ g.ins k → ¬ L q k → s.pool.reg (k : Int) = some k → (gh.t q).q.q ≠ [] →
    Awake s.pool k ∨ Notifies g s q k
  head : ∀ k, g.periodic k = true → s.pool.reg (k : Int) = some k → Awake s.pool k

/-- The invariant of a network whose connections stay. -/
abbrev Inv (g : Graph) (s : S α) (gh : Ghost α) (outs : List (Out α)) : Prop := InvL (fun _ _ => False) g s gh outs

section
variable {L : Nat → Nat → Prop} {g : Graph} {s : S α} {gh : Ghost α} {outs : List (Out α)}

theorem InvL.quiet (h : InvL L g s gh outs) : InvL L g s gh (outs ++ [.quiet]) := by
  refine { h with hist := ?_, same := ?_ }
  · simpa [handled_append, made_append, handled, made] using h.hist
  · simpa [handled_append, handled] using h.same

theorem notifies_congr {s s' : S α} {q k : Nat} (h : Notifies g s q k)
    (e : ∀ w, (s.pool.ph w = .run (g.src q) ∨ s.pool.ph w = .post (g.src q)) →
      (s'.pool.ph w = .run (g.src q) ∨ s'.pool.ph w = .post (g.src q)) ∧ s'.act w = s.act w) : Notifies g s' q k := by
  obtain ⟨w, hw, h1⟩ := h
  obtain ⟨e1, e2⟩ := e w hw
  exact ⟨w, e1, by rw [e2]; exact h1⟩

/-! ### Steps of the pool -/

theorem step_add (h : InvL L g s gh outs) (k : Nat) :
    ∃ s' o, s.step g (.add k) = .ok (s', o) ∧ InvL L g s' gh (outs ++ [o]) := by
  unfold S.step
  simp only [S.onPool]
  rcases hp : s.pool.step (.add k) with ⟨p, o⟩ | _ | _
  · refine ⟨{ s with pool := p }, .quiet, rfl, InvL.quiet ?_⟩
    have hi := Pool.step_inv h.pinv hp
    have aw : ∀ q, Awake s.pool q → Awake p q := fun q ha => Pool.awake_step (op := .add k) h.pinv ha trivial hp
    simp only [P.step] at hp
    (repeat' split at hp) <;> simp at hp
    · rw [← hp.1]; exact h
    · rw [← hp.1]; exact h
    · have e := hp.1
      have eph : p.ph = s.pool.ph := by rw [← e]
      have ereg : ∀ id, p.reg id = if id = (k : Int) then some k else s.pool.reg id := by
        intro id; rw [← e, h.ident]; rfl
      have new : Awake p k := by
        refine ⟨by rw [← e]; simp [Pool.set], ?_, ?_⟩
        · intro x _ hx
          have : s.pool.ident x = s.pool.ident k := by rw [← e] at hx; exact hx
          rw [h.ident, h.ident] at this; omega
        · left
          rw [← e]
          simp only
          unfold Pool.TQ.pushBack
          by_cases hm : s.pool.ident k ∈ s.pool.q.set
          · rw [if_pos hm]
            obtain ⟨y, hy, hy2⟩ := List.mem_map.1 (h.pinv.set.mem_iff.1 hm)
            rw [h.ident, h.ident] at hy2
            have : y = k := by omega
            rw [← this]; exact hy
          · rw [if_neg hm]; simp [Pool.TQ.reset]
      refine { pinv := hi, ident := ?_, freed := ?_, idle := ?_, run := ?_,
               post := ?_, free := ?_, rd := h.rd, members := h.members, hist := h.hist, same := h.same,
               wake := ?_, head := ?_ }
      · intro x; rw [← e]; exact h.ident x
      · intro x; rw [← e]; exact h.freed x
      · intro w hw; simp only [eph] at hw; exact h.idle w hw
      · intro w j hw; simp only [eph] at hw; exact h.run w j hw
      · intro w j hw; simp only [eph] at hw; exact h.post w j hw
      · intro j hj; simp only [eph] at hj; exact h.free j hj
      · intro q j hin hl hr hq
        simp only [ereg] at hr
        split at hr
        · rename_i e2
          have : k = j := by omega
          rw [← this]
          exact Or.inl new
        · rcases h.wake q j hin hl hr hq with ha | hn
          · exact Or.inl (aw _ ha)
          · exact Or.inr (notifies_congr hn fun w hw => ⟨by simp only [eph]; exact hw, rfl⟩)
      · intro j hj hr
        simp only [ereg] at hr
        split at hr
        · have : k = j := by omega
          subst this
          exact new
        · exact aw _ (h.head j hj hr)
    · rw [← hp.1]; exact h
  · have := h.freed
    simp only [P.step] at hp
    (repeat' split at hp) <;> simp_all
  · simp only [P.step] at hp
    (repeat' split at hp) <;> simp_all

theorem good_start (h : InvL L g s gh outs) {k : Nat} (hno : ∀ w, s.pool.ph w ≠ .run k) :
    Good g s.rd gh k .start := by
  refine { busy := by simp, held := ?_, only := fun q hq => absurd hq (h.free k hno q).2, once := ?_, asks := ?_,
           org := ?_, dst := ?_, dOnce := ?_, offers := ?_, claim := ?_ }
  · simp [Act.held]
  · simp [Act.held]
  · simp [Act.asks]
  · simp [Act.origins]
  · simp [Act.dests]
  · simp [Act.dests, Act.offers]
  · simp [Act.offers]
  · intro q
    rw [(h.free k hno q).1]
    simp [Act.claimed]

theorem step_pick (h : InvL L g s gh outs) (w now : Nat) :
    ∃ s' o, s.step g (.pick w now) = .ok (s', o) ∧ InvL L g s' gh (outs ++ [o]) := by
  unfold S.step
  simp only [S.onPool]
  have aw : ∀ p o, s.pool.step (.pick w now) = .ok (p, o) → ∀ q, Awake s.pool q → Awake p q :=
    fun p o hp q ha => Pool.awake_step (op := .pick w now) h.pinv ha trivial hp
  have hi : ∀ p o, s.pool.step (.pick w now) = .ok (p, o) → Pool.Inv p :=
    fun p o hp => Pool.step_inv h.pinv hp
  by_cases hl : s.pool.lock.isSome
  · simp only [P.step, hl, if_true, Outcome.bind_ok]
    exact ⟨s, .quiet, rfl, h.quiet⟩
  · rcases hph : s.pool.ph w with _ | k | k
    · obtain ⟨p, o, hp⟩ := pick_total h.freed w now
      have hst : s.pool.step (.pick w now) = .ok (p, match (generalizing := false) o with | none => .waits | some p => .picked p) := by
        simp only [P.step, hl, hph, hp, Outcome.bind_ok, Bool.false_eq_true, if_false]
        rcases o with _ | _ <;> rfl
      have aw := aw _ _ hst
      have hi := hi _ _ hst
      rw [hst]
      simp only [Outcome.bind_ok]
      rcases Pool.pick_ok hp with ⟨rfl, e, _⟩ | ⟨k, a, l, rfl, g1, _, _, g4, e⟩
      · refine ⟨{ s with pool := p }, .quiet, rfl, InvL.quiet ?_⟩
        subst e
        exact { pinv := hi, ident := h.ident, freed := h.freed
                idle := h.idle, run := h.run, post := h.post, free := h.free, rd := h.rd
                members := h.members, hist := h.hist, same := h.same
                wake := fun j k hj hl hr hq => (h.wake j k hj hl hr hq).imp (aw _)
                  (fun hn => notifies_congr hn fun w hw => ⟨hw, rfl⟩)
                head := fun k hk hr => aw _ (h.head k hk hr) }
      · refine ⟨{ s with pool := p, act := Pool.set s.act w .start }, .quiet, rfl, InvL.quiet ?_⟩
        obtain ⟨hk1, hk2⟩ := Pool.firstIdle_some g1
        have hno : ∀ w', s.pool.ph w' ≠ .run k := by
          intro w' hw'
          rw [(h.pinv.run k).2 ⟨w', hw'⟩] at hk2
          simp at hk2
        have eph : p.ph = Pool.set s.pool.ph w (.run k) := by rw [e]
        have ereg : p.reg = s.pool.reg := by rw [e]
        refine { pinv := hi, ident := ?_, freed := ?_, idle := ?_, run := ?_,
                 post := ?_, free := ?_, rd := h.rd, members := h.members, hist := h.hist, same := h.same,
                 wake := ?_, head := ?_ }
        · intro x; rw [e]; exact h.ident x
        · intro x; rw [e]; exact h.freed x
        · intro w' hw'
          simp only [eph] at hw'
          by_cases e2 : w' = w
          · subst e2; rw [set_eq] at hw'; simp at hw'
          · rw [set_ne _ _ e2] at hw'; simp only [set_ne _ _ e2]; exact h.idle w' hw'
        · intro w' j hw'
          simp only [eph] at hw'
          by_cases e2 : w' = w
          · subst e2
            rw [set_eq] at hw'
            injection hw' with hw'
            subst hw'
            simp only [set_eq]
            exact good_start h hno
          · rw [set_ne _ _ e2] at hw'; simp only [set_ne _ _ e2]; exact h.run w' j hw'
        · intro w' j hw'
          simp only [eph] at hw'
          by_cases e2 : w' = w
          · subst e2; rw [set_eq] at hw'; simp at hw'
          · rw [set_ne _ _ e2] at hw'; simp only [set_ne _ _ e2]; exact h.post w' j hw'
        · intro j hj
          apply h.free j
          intro w' hw'
          have e2 : w' ≠ w := by rintro rfl; rw [hph] at hw'; simp at hw'
          apply hj w'
          simp only [eph, set_ne _ _ e2]
          exact hw'
        · intro j k hj hl hr hq
          simp only [ereg] at hr
          refine (h.wake j k hj hl hr hq).imp (aw _) (fun hn => notifies_congr hn fun w' hw' => ?_)
          have e2 : w' ≠ w := by rintro rfl; rw [hph] at hw'; simp at hw'
          simp only [eph, set_ne _ _ e2]
          exact ⟨hw', trivial⟩
        · intro j hj hr
          simp only [ereg] at hr
          exact aw _ (h.head j hj hr)
    · simp only [P.step, hl, hph]
      exact ⟨s, .quiet, rfl, h.quiet⟩
    · simp only [P.step, hl, hph]
      exact ⟨s, .quiet, rfl, h.quiet⟩

theorem step_done (h : InvL L g s gh outs) (w t : Nat) :
    ∃ s' o, s.step g (.done w t) = .ok (s', o) ∧ InvL L g s' gh (outs ++ [o]) := by
  have stay : ∃ s' o, (Outcome.ok (s, Out.quiet) : Outcome (S α × Out α)) = .ok (s', o) ∧ InvL L g s' gh (outs ++ [o]) :=
    ⟨s, .quiet, rfl, h.quiet⟩
  unfold S.step
  rcases ha : s.act w with _ | _ | _ | _ | _ | ⟨_ | ⟨q0, todo⟩, en⟩ <;> simp only [ha]
  case drop.nil =>
    simp only [S.onPool]
    by_cases hl : s.pool.lock.isSome
    · simp only [P.step, hl, if_true, Outcome.bind_ok]
      exact stay
    · rcases hph : s.pool.ph w with _ | k | k
      · simp only [P.step, hl, hph]
        exact stay
      · have hst : s.pool.step (.done w t) = .ok ({ s.pool with
            running := Pool.set s.pool.running k false, time := Pool.set s.pool.time k t
            ph := Pool.set s.pool.ph w (.post k), lock := some w }, .unit) := by
          simp [P.step, hl, hph, h.freed]
        have aw : ∀ q, Awake s.pool q → Awake _ q :=
          fun q ha => Pool.awake_step (op := .done w t) h.pinv ha trivial hst
        have hi := Pool.step_inv h.pinv hst
        rw [hst]
        simp only [Outcome.bind_ok]
        refine ⟨_, _, rfl, InvL.quiet ?_⟩
        have hg := h.run w k hph
        rw [ha] at hg
        refine { pinv := hi, ident := h.ident, freed := h.freed,
                 idle := ?_, run := ?_, post := ?_, free := ?_, rd := h.rd, members := h.members,
                 hist := h.hist, same := h.same, wake := ?_, head := fun k hk hr => aw _ (h.head k hk hr) }
        · intro w' hw'
          simp only at hw'
          by_cases e2 : w' = w
          · subst e2; rw [set_eq] at hw'; simp at hw'
          · rw [set_ne _ _ e2] at hw'; exact h.idle w' hw'
        · intro w' j hw'
          simp only at hw'
          by_cases e2 : w' = w
          · subst e2; rw [set_eq] at hw'; simp at hw'
          · rw [set_ne _ _ e2] at hw'; exact h.run w' j hw'
        · intro w' j hw'
          simp only at hw'
          by_cases e2 : w' = w
          · subst e2
            exact ⟨en, ha⟩
          · rw [set_ne _ _ e2] at hw'; exact h.post w' j hw'
        · intro j hj
          by_cases e3 : j = k
          · subst e3
            intro q
            refine ⟨by rw [hg.claim q]; simp [Act.claimed], fun hh => ?_⟩
            have := hg.only q hh
            simp [Act.held] at this
          · apply h.free j
            intro w' hw'
            have e2 : w' ≠ w := by
              rintro rfl
              rw [hph] at hw'
              injection hw' with hw'
              exact e3 hw'.symm
            apply hj w'
            simp only [set_ne _ _ e2]
            exact hw'
        · intro j k' hj hl hr hq
          refine (h.wake j k' hj hl hr hq).imp (aw _) (fun hn => notifies_congr hn fun w' hw' => ?_)
          refine ⟨?_, rfl⟩
          by_cases e2 : w' = w
          · subst e2
            rw [hph] at hw'
            simp only [set_eq]
            rcases hw' with hw' | hw'
            · injection hw' with hw'; rw [hw']; exact Or.inr rfl
            · simp at hw'
          · simp only [set_ne _ _ e2]; exact hw'
      · simp only [P.step, hl, hph]
        exact stay
  all_goals exact stay

theorem pending_of (h : InvL L g s gh outs) {q k : Nat} (hq : q ∈ g.ins k) (hne : (gh.t q).q.q ≠ []) :
    s.pending g k = true := by
  unfold S.pending
  rw [List.any_eq_true]
  refine ⟨q, hq, ?_⟩
  unfold S.ring
  rw [(h.rd q).1.ring.getElements_eq]
  have := List.length_pos_iff.2 hne
  simpa using this

theorem step_post (h : InvL L g s gh outs) (w : Nat) :
    ∃ s' o, s.step g (.post w) = .ok (s', o) ∧ InvL L g s' gh (outs ++ [o]) := by
  unfold S.step
  rcases hph : s.pool.ph w with _ | k | k
  case post =>
    obtain ⟨en, ha⟩ := h.post w k hph
    simp only [hph, ha, S.onPool]
    obtain ⟨ids, hids⟩ : ∃ ids, ids = (if g.periodic k = true then en ++ [(k : Int)] else en) := ⟨_, rfl⟩
    rw [← hids]
    obtain ⟨q, hq⟩ := pushAll_total (if s.pending g k = true then ids ++ [s.pool.ident k] else ids) s.pool h.freed
    obtain ⟨tq, htq⟩ := Pool.pushAll_ok _ _ _ hq
    have hst : s.pool.step (.post w ids (s.pending g k)) =
        .ok ({ q with ph := Pool.set q.ph w .idle, lock := none }, .unit) := by
      simp only [P.step, hph, h.freed, hq, Outcome.bind_ok, Bool.false_eq_true, if_false]
    have hi := Pool.step_inv h.pinv hst
    have aw : ∀ x, Awake s.pool x → (x = k → s.pending g k = true) →
        Awake { q with ph := Pool.set q.ph w .idle, lock := none } x := by
      intro x hx hpe
      refine Pool.awake_step (op := .post w ids (s.pending g k)) h.pinv hx ?_ hst
      intro hw
      rw [hph] at hw
      injection hw with hw
      exact hpe hw.symm
    have told : ∀ x : Nat, s.pool.reg (x : Int) = some x → (x : Int) ∈ ids →
        Awake { q with ph := Pool.set q.ph w .idle, lock := none } x := by
      intro x hx hm
      have hu : ∀ y ∈ s.pool.q.queue, s.pool.ident y = s.pool.ident x → y = x := by
        intro y _ he; rw [h.ident, h.ident] at he; omega
      obtain ⟨g1, g2, g3⟩ := Pool.pushAll_awake _ _ _ x h.pinv (by rw [h.ident]; exact hx) hu hq
      refine ⟨?_, ?_, Or.inl (g3 ?_)⟩
      · subst htq; simp only [h.ident]; exact hx
      · subst htq; exact g1
      · rw [h.ident x]
        split
        · exact List.mem_append_left _ hm
        · exact hm
    rw [hst]
    simp only [Outcome.bind_ok]
    refine ⟨_, _, rfl, InvL.quiet ?_⟩
    subst htq
    refine { pinv := hi, ident := h.ident, freed := h.freed,
             idle := ?_, run := ?_, post := ?_, free := ?_, rd := h.rd, members := h.members,
             hist := h.hist, same := h.same, wake := ?_, head := ?_ }
    · intro w' hw'
      by_cases e2 : w' = w
      · subst e2; simp only [S.at, set_eq]
      · simp only [S.at, set_ne _ _ e2] at hw' ⊢; exact h.idle w' hw'
    · intro w' j hw'
      by_cases e2 : w' = w
      · subst e2; simp only [S.at, set_eq] at hw'; simp at hw'
      · simp only [S.at, set_ne _ _ e2] at hw' ⊢; exact h.run w' j hw'
    · intro w' j hw'
      by_cases e2 : w' = w
      · subst e2; simp only [S.at, set_eq] at hw'; simp at hw'
      · simp only [S.at, set_ne _ _ e2] at hw' ⊢; exact h.post w' j hw'
    · intro j hj
      apply h.free j
      intro w' hw'
      have e2 : w' ≠ w := by rintro rfl; rw [hph] at hw'; simp at hw'
      apply hj w'
      simp only [S.at, set_ne _ _ e2]
      exact hw'
    · intro j k' hj hl hr hqq
      rcases h.wake j k' hj hl hr hqq with hx | hn
      · left
        apply aw _ hx
        rintro e
        rw [← e]
        exact pending_of h hj hqq
      · obtain ⟨w', hw', h1⟩ := hn
        by_cases e2 : w' = w
        · subst e2
          left
          rw [ha] at h1
          apply told _ hr
          rw [hids]
          split
          · exact List.mem_append_left _ h1
          · exact h1
        · right
          refine ⟨w', ?_, ?_⟩
          · simp only [S.at, set_ne _ _ e2]; exact hw'
          · simp only [S.at, set_ne _ _ e2]; exact h1
    · intro j hj hr
      by_cases hk0 : j = k
      · subst hk0
        apply told j hr
        rw [hids, if_pos hj]
        simp
      · exact aw j (h.head j hj hr) (fun e => absurd e hk0)
  all_goals
    simp only [hph]
    exact ⟨s, .quiet, rfl, h.quiet⟩

/-! ### Steps inside `processFrame` -/

theorem ring_rel {r : Rd α} {t : SharedReader.Spec α} (h : Rel r t) {b : Ring α} {u : FrameQueue.Spec α}
    (hb : FrameQueue.Rel b u) (hf : b.front = r.ring.front) (hne : t.q.q ≠ [] → u.q ≠ []) :
    Rel { r with ring := b } { t with q := u } := by
  refine ⟨hb, h.conn, h.mem, h.nd, h.ready, h.idle, ?_, h.flags, h.sub⟩
  intro ha
  refine ⟨?_, hne (h.held ha).2⟩
  show r.frame = some b.front
  rw [hf]; exact (h.held ha).1

theorem rest_congr {gh gh' : Ghost α} {q k : Nat} (h1 : gh'.t q = gh.t q) (h2 : gh'.c q k = gh.c q k) :
    gh'.rest q k = gh.rest q k := by
  unfold Ghost.rest Ghost.Past; simp only [h1, h2]

theorem rest_past {gh : Ghost α} {q k : Nat} (h : gh.Past q k) : gh.rest q k = (gh.t q).q.q.tail := if_pos h

theorem rest_not {gh : Ghost α} {q k : Nat} (h : ¬ gh.Past q k) : gh.rest q k = (gh.t q).q.q := if_neg h

theorem good_other {rd rd' : Nat → Rd α} {gh gh' : Ghost α} {j : Nat} {a : Act α} (ok : g.Ok)
    (h : Good g rd gh j a)
    (ho : ∀ q, gh'.c q j = gh.c q j ∧ (gh'.Holds q j ↔ gh.Holds q j) ∧
      (gh.Holds q j → (rd' q).ring.front = (rd q).ring.front))
    (hd : ∀ q, g.src q = j → (rd' q).ring.rear = (rd q).ring.rear ∧
      ((gh.t q).q.q.length < (gh.t q).q.cap → (gh'.t q).q.q.length < (gh'.t q).q.cap)) : Good g rd' gh' j a := by
  have hsub : ∀ x ∈ a.origins, x.1 ∈ a.held := by
    intro x hx
    cases a <;> simp only [Act.origins, Act.held] at hx ⊢
    all_goals first | exact List.mem_map_of_mem hx | simp at hx
  refine { h with held := ?_, only := ?_, org := ?_, dst := ?_, claim := ?_ }
  · intro q hq
    obtain ⟨h1, h2⟩ := h.held q hq
    exact ⟨h1, (ho q).2.1.2 h2⟩
  · intro q hq
    exact h.only q ((ho q).2.1.1 hq)
  · intro x hx
    rw [(ho x.1).2.2 (h.held _ (hsub x hx)).2]
    exact h.org x hx
  · intro x hx
    obtain ⟨h1, h2, h3⟩ := h.dst x hx
    obtain ⟨e1, e2⟩ := hd x.1 (ok.outs _ _ h1)
    exact ⟨h1, by rw [e1]; exact h2, e2 h3⟩
  · intro q
    rw [(ho q).1]; exact h.claim q

/-- A worker goes on with its filter. -/
theorem goes_on (ok : g.Ok) (h : InvL L g s gh outs) {w k : Nat} (hph : s.pool.ph w = .run k) {a : Act α}
    {rd' : Nat → Rd α} {gh' : Ghost α} {o : Out α}
    (hgood : Good g rd' gh' k a)
    (ho : ∀ q j, j ≠ k → gh'.c q j = gh.c q j ∧ (gh'.Holds q j ↔ gh.Holds q j) ∧
      (gh.Holds q j → (rd' q).ring.front = (s.rd q).ring.front))
    (hd : ∀ q, g.src q ≠ k → (rd' q).ring.rear = (s.rd q).ring.rear ∧
      ((gh.t q).q.q.length < (gh.t q).q.cap → (gh'.t q).q.q.length < (gh'.t q).q.cap))
    (hrd : ∀ q, Rel (rd' q) (gh'.t q) ∧ 3 ≤ (rd' q).ring.max)
    (hmem : ∀ q, (gh'.t q).members = (gh.t q).members)
    (hhist : ∀ q j, j ∈ g.dst q →
      (handled q j (outs ++ [o]) ++ gh'.rest q j).Sublist (made q (outs ++ [o])) ∧
      (made q (outs ++ [o])).length = (handled q j (outs ++ [o]) ++ gh'.rest q j).length + (gh'.t q).q.lost)
    (hsame : ∀ q, ∃ F : List α → List α, ∀ j ∈ g.dst q,
      handled q j (outs ++ [o]) ++ gh'.rest q j = F (handled q j outs ++ gh.rest q j))
    (hwake : ∀ q j, j ∈ g.dst q → (gh'.t q).q.q ≠ [] →
      (gh.t q).q.q ≠ [] ∨ (g.src q = k ∧ (j : Int) ∈ a.notes))
    (hkeep : ∀ id ∈ (s.act w).notes, id ∈ a.notes) :
    InvL L g (({ s with rd := rd' } : S α).at w a) gh' (outs ++ [o]) := by
  have hex : ∀ w', w' ≠ w → ∀ j, s.pool.ph w' = .run j → j ≠ k := by
    rintro w' hw j hj rfl
    exact hw (h.pinv.excl _ _ _ hj hph)
  refine { pinv := h.pinv, ident := h.ident, freed := h.freed,
           idle := ?_, run := ?_, post := ?_, free := ?_, rd := hrd
           members := fun q => (hmem q).trans (h.members q)
           hist := hhist, same := ?_, wake := ?_, head := h.head }
  · intro w' hw'
    have e : w' ≠ w := by rintro rfl; simp only [S.at, hph] at hw'; simp at hw'
    simp only [S.at, set_ne _ _ e]; exact h.idle w' hw'
  · intro w' j hw'
    by_cases e : w' = w
    · subst e
      simp only [S.at, hph] at hw'
      injection hw' with hw'
      subst hw'
      simp only [S.at, set_eq]
      exact hgood
    · simp only [S.at, set_ne _ _ e]
      have hj := hex w' e j hw'
      exact good_other ok (h.run w' j hw') (fun q => ho q j hj)
        (fun q hq => hd q (by rw [hq]; exact hj))
  · intro w' j hw'
    have e : w' ≠ w := by rintro rfl; simp only [S.at, hph] at hw'; simp at hw'
    simp only [S.at, set_ne _ _ e]; exact h.post w' j hw'
  · intro j hj q
    have e : j ≠ k := by rintro rfl; exact hj w hph
    obtain ⟨h1, h2⟩ := h.free j hj q
    exact ⟨(ho q j e).1.trans h1, fun hh => h2 ((ho q j e).2.1.1 hh)⟩
  · intro q j hj j' hj'
    obtain ⟨F, hF⟩ := hsame q
    rw [hF j hj, hF j' hj', h.same q j hj j' hj']
  · intro q j hj hl hr hq
    rcases hwake q j (ok.ins _ _ hj) hq with hq | ⟨e, ha⟩
    · refine (h.wake q j hj hl hr hq).imp id (fun hn => ?_)
      obtain ⟨w', hw', h1⟩ := hn
      refine ⟨w', hw', ?_⟩
      by_cases e : w' = w
      · subst e; simp only [S.at, set_eq]; exact hkeep _ h1
      · simp only [S.at, set_ne _ _ e]; exact h1
    · right
      exact ⟨w, Or.inl (by rw [e]; exact hph), by simp only [S.at, set_eq]; exact ha⟩

theorem hist_quiet (h : InvL L g s gh outs) : ∀ q j, j ∈ g.dst q →
    (handled q j (outs ++ [Out.quiet]) ++ gh.rest q j).Sublist (made q (outs ++ [Out.quiet])) ∧
      (made q (outs ++ [Out.quiet])).length =
        (handled q j (outs ++ [Out.quiet]) ++ gh.rest q j).length + (gh.t q).q.lost := by
  simpa [handled_append, made_append, handled, made] using h.hist

theorem same_quiet (gh' : Ghost α) (outs : List (Out α)) (q : Nat)
    (h : ∀ j ∈ g.dst q, gh'.rest q j = gh.rest q j) : ∃ F : List α → List α, ∀ j ∈ g.dst q,
      handled q j (outs ++ [Out.quiet]) ++ gh'.rest q j = F (handled q j outs ++ gh.rest q j) :=
  ⟨id, fun j hj => by rw [h j hj]; simp [handled_append, handled]⟩

/-- A worker goes on without touching a queue. -/
theorem moves_on (ok : g.Ok) (h : InvL L g s gh outs) {w k : Nat} (hph : s.pool.ph w = .run k) {a : Act α}
    (hgood : Good g s.rd gh k a) (hkeep : ∀ id ∈ (s.act w).notes, id ∈ a.notes) :
    InvL L g (s.at w a) gh (outs ++ [.quiet]) :=
  goes_on ok h hph (rd' := s.rd) hgood (fun _ _ _ => ⟨rfl, Iff.rfl, fun _ => rfl⟩) (fun _ _ => ⟨rfl, id⟩) h.rd
    (fun _ => rfl) (hist_quiet h) (fun q => same_quiet gh outs q fun _ _ => rfl) (fun _ _ _ hq => Or.inl hq) hkeep

theorem begin_inv (ok : g.Ok) (h : InvL L g s gh outs) {w k : Nat} (hph : s.pool.ph w = .run k)
    (ha : s.act w = .start) (qs : List Nat) :
    InvL L g (s.at w (.look ((g.ins k).filter fun q => qs.contains q) [])) gh (outs ++ [.quiet]) := by
  have hg := h.run w k hph
  rw [ha] at hg
  refine moves_on ok h hph ?_ (by rw [ha]; simp [Act.notes])
  refine { busy := by simp, held := by simp [Act.held], only := hg.only, once := by simp [Act.held], asks := ?_,
           org := by simp [Act.origins], dst := by simp [Act.dests], dOnce := by simp [Act.dests, Act.offers],
           offers := by simp [Act.offers], claim := hg.claim }
  · intro q hq
    simp only [Act.asks] at hq
    exact (List.mem_filter.1 hq).1

/-- Being told of a frame leaves it to be dealt with by every filter that shares the reader. -/
theorem tell_rest {gh : Ghost α} {q k : Nat} (hk : k ∈ (if (gh.t q).active then (gh.t q).todo else (gh.t q).members))
    (hc : gh.c q k = false)
    (t' : SharedReader.Spec α)
    (ht : t' = { gh.t q with
      active := true
      todo := (if (gh.t q).active then (gh.t q).todo else (gh.t q).members).filter (· ≠ k)
      hold := k :: (if (gh.t q).active then (gh.t q).hold else []) }) :
    (∀ j ∈ (gh.t q).members, ({ gh with t := Pool.set gh.t q t' } : Ghost α).rest q j = gh.rest q j) ∧
    (∀ j, j ≠ k → (({ gh with t := Pool.set gh.t q t' } : Ghost α).Holds q j ↔ gh.Holds q j)) := by
  subst ht
  have hback : gh.Past q k → False := by
    rintro ⟨h1, h2, _⟩
    rw [h1] at hk; exact h2 hk
  constructor
  · intro j hj
    by_cases e : j = k
    · subst e
      rw [rest_not (gh := gh) (fun h => hback h), rest_not]
      · simp only [set_eq]
      · rintro ⟨_, _, h3⟩
        simp only [set_eq] at h3
        rw [h3 (by simp)] at hc
        simp at hc
    · cases ha : (gh.t q).active with
      | false =>
        rw [rest_not (gh := gh) (fun h => by rw [h.1] at ha; simp at ha), rest_not]
        · simp only [set_eq]
        · rintro ⟨_, h2, _⟩
          simp only [set_eq, Bool.false_eq_true, if_false] at h2
          exact h2 (List.mem_filter.2 ⟨hj, by simpa using e⟩)
      | true =>
        unfold Ghost.rest Ghost.Past
        simp only [set_eq, ha, if_true, List.mem_filter, List.mem_cons, e, false_or, ne_eq, not_false_eq_true,
          decide_true, and_true]
  · intro j e
    unfold Ghost.Holds
    simp only [set_eq]
    cases ha : (gh.t q).active <;> simp [e]

theorem look_inv (ok : g.Ok) (h : InvL L g s gh outs) {w k q : Nat} {todo : List Nat} {got : List (Nat × Nat)}
    (hph : s.pool.ph w = .run k) (ha : s.act w = .look (q :: todo) got) :
    ∃ s' gh', s.inner g w k (s.act w) (.look w) = .ok (s', .quiet) ∧ InvL L g s' gh' (outs ++ [.quiet]) := by
  have hg := h.run w k hph
  rw [ha] at hg
  rw [ha]
  have ho := hg.once
  simp only [Act.held] at ho
  have hqi : q ∈ g.ins k := hg.asks q (by simp [Act.asks])
  have hkm : k ∈ (gh.t q).members := by rw [h.members q]; exact ok.ins _ _ hqi
  obtain ⟨hrel, hmax⟩ := h.rd q
  have hc : gh.c q k = false := by rw [hg.claim q]; simp [Act.claimed]
  -- nothing new: the filter goes on
  have idle : ∀ r : Rd α, r.ring = (s.rd q).ring → Rel r (gh.t q) →
      InvL L g (({ s with rd := Pool.set s.rd q r } : S α).at w (.look todo got)) gh (outs ++ [.quiet]) := by
    intro r hr hrl
    have hsame : ∀ p, ((Pool.set s.rd q r) p).ring = (s.rd p).ring := by
      intro p
      by_cases e : p = q
      · subst e; rw [set_eq]; exact hr
      · rw [set_ne _ _ e]
    refine goes_on ok h hph ?_ (fun p j _ => ⟨rfl, Iff.rfl, fun _ => by rw [hsame]⟩)
      (fun p _ => ⟨by rw [hsame], id⟩) ?_ (fun _ => rfl) (hist_quiet h) (fun q => same_quiet gh outs q fun _ _ => rfl)
      (fun _ _ _ hq => Or.inl hq) (by rw [ha]; simp [Act.notes])
    · refine { busy := by simp, held := hg.held, only := hg.only, once := ho, asks := ?_, org := ?_
               dst := by simp [Act.dests], dOnce := hg.dOnce, offers := hg.offers, claim := hg.claim }
      · intro q' hq'; exact hg.asks q' (List.mem_cons_of_mem _ hq')
      · intro x hx; rw [hsame]; exact hg.org x hx
    · intro p
      rw [hsame]
      refine ⟨?_, (h.rd p).2⟩
      by_cases e : p = q
      · subst e; rw [set_eq]; exact hrl
      · rw [set_ne _ _ e]; exact (h.rd p).1
  rcases hq : (gh.t q).q.q with _ | ⟨x, l⟩
  · obtain ⟨r, h1, h2⟩ := SharedReader.step_rel (s.rd q) (gh.t q) (.get k) trivial hrel
    simp only [SharedReader.Rd.step, SharedReader.Spec.step, SharedReader.Spec.get, if_pos hkm, hq] at h1 h2
    rcases hgf : (s.rd q).getFrame k with ⟨r0, o0⟩ | _ | _ <;> rw [hgf] at h1 <;> simp at h1
    obtain ⟨rfl, rfl⟩ := h1
    have hring : r0.ring = (s.rd q).ring := by
      unfold SharedReader.Rd.getFrame at hgf
      split at hgf
      · simp at hgf
      · split at hgf
        · simp at hgf
        · split at hgf
          · rcases hff : (s.rd q).ring.forceGetFront with i | _ | _ <;> rw [hff] at hgf <;> simp at hgf
            rw [← hgf.1]
          · simp at hgf
            rw [← hgf.1]
    refine ⟨_, gh, ?_, idle r0 hring h2⟩
    simp only [S.inner, hgf, Outcome.bind_ok]
  · obtain ⟨h1, h2⟩ := hrel.announce k hkm x l hq
    by_cases hin : k ∈ (if (gh.t q).active then (gh.t q).todo else (gh.t q).members)
    · have hnoth : ¬ gh.Holds q k := by
        rintro ⟨h3, h4⟩
        rw [h3] at hin
        exact (hrel.sub h3).2.2.1 k hin h4
      have hget : (gh.t q).get k = ({ gh.t q with
          active := true
          todo := (if (gh.t q).active then (gh.t q).todo else (gh.t q).members).filter (· ≠ k)
          hold := k :: (if (gh.t q).active then (gh.t q).hold else []) }, some (x, true)) := by
        unfold SharedReader.Spec.get
        rw [if_pos hkm, hq]
        simp only
        rw [if_pos hin]
      rw [hget] at h1 h2
      simp only at h1 h2
      obtain ⟨hrest, hhold⟩ := tell_rest hin hc _ rfl
      simp only [S.inner, h1, Outcome.bind_ok]
      refine ⟨_, { gh with t := Pool.set gh.t q { gh.t q with
          active := true
          todo := (if (gh.t q).active then (gh.t q).todo else (gh.t q).members).filter (· ≠ k)
          hold := k :: (if (gh.t q).active then (gh.t q).hold else []) } }, rfl, ?_⟩
      generalize ht' : ({ gh.t q with
          active := true
          todo := (if (gh.t q).active then (gh.t q).todo else (gh.t q).members).filter (· ≠ k)
          hold := k :: (if (gh.t q).active then (gh.t q).hold else []) } : SharedReader.Spec α) = t' at *
      have hq' : t'.q = (gh.t q).q := by rw [← ht']
      have hm' : t'.members = (gh.t q).members := by rw [← ht']
      have hkh : t'.active = true ∧ k ∈ t'.hold := by rw [← ht']; simp
      generalize hr' : ({ s.rd q with
          frame := some (s.rd q).ring.front, ready := false
          filters := SharedReader.setTold (if (s.rd q).ready then (s.rd q).filters.map fun e => (e.1, true, true)
            else (s.rd q).filters) k } : Rd α) = r' at *
      have hring : r'.ring = (s.rd q).ring := by rw [← hr']
      have hsame : ∀ p, ((Pool.set s.rd q r') p).ring = (s.rd p).ring := by
        intro p
        by_cases e : p = q
        · subst e; rw [set_eq]; exact hring
        · rw [set_ne _ _ e]
      have hqs : ∀ p, ((Pool.set gh.t q t') p).q = (gh.t p).q := by
        intro p
        by_cases e : p = q
        · subst e; rw [set_eq]; exact hq'
        · rw [set_ne _ _ e]
      have hrs : ∀ p, ∀ j ∈ g.dst p, ({ gh with t := Pool.set gh.t q t' } : Ghost α).rest p j = gh.rest p j := by
        intro p j hj
        by_cases e : p = q
        · subst e; exact hrest j (by rw [h.members p]; exact hj)
        · exact rest_congr (by simp only [set_ne _ _ e]) rfl
      refine goes_on ok h hph ?_ ?_ ?_ ?_ ?_ ?_ ?_ ?_ (by rw [ha]; simp [Act.notes])
      · refine { busy := by simp, held := ?_, only := ?_, once := ?_, asks := ?_, org := ?_
                 dst := by simp [Act.dests], dOnce := hg.dOnce, offers := hg.offers, claim := hg.claim }
        · intro p hp
          simp only [Act.held, List.map_append, List.mem_append, List.map_cons, List.map_nil,
            List.mem_singleton] at hp
          rcases hp with hp | rfl
          · have e : p ≠ q := by
              rintro rfl
              exact hnoth (hg.held p hp).2
            unfold Ghost.Holds
            simp only [set_ne _ _ e]
            exact hg.held p hp
          · unfold Ghost.Holds
            simp only [set_eq]
            exact ⟨hqi, hkh⟩
        · intro p hp
          simp only [Act.held, List.map_append, List.mem_append, List.map_cons, List.map_nil, List.mem_singleton]
          by_cases e : p = q
          · exact Or.inr e
          · unfold Ghost.Holds at hp
            simp only [set_ne _ _ e] at hp
            exact Or.inl (hg.only p hp)
        · simp only [Act.held, List.map_append, List.map_cons, List.map_nil]
          rw [List.nodup_append]
          refine ⟨ho, by simp, ?_⟩
          intro p hp y hy e
          simp only [List.mem_singleton] at hy
          subst hy e
          exact hnoth (hg.held p hp).2
        · intro q' hq'; exact hg.asks q' (List.mem_cons_of_mem _ hq')
        · intro y hy
          simp only [Act.origins, List.mem_append, List.mem_singleton] at hy
          rw [hsame]
          rcases hy with hy | rfl
          · exact hg.org y hy
          · rfl
      · intro p j hj
        refine ⟨rfl, ?_, fun _ => by rw [hsame]⟩
        by_cases e : p = q
        · subst e; exact hhold j hj
        · unfold Ghost.Holds; simp only [set_ne _ _ e]
      · intro p _
        simp only [hqs]
        rw [hsame]
        exact ⟨rfl, id⟩
      · intro p
        rw [hsame]
        refine ⟨?_, (h.rd p).2⟩
        by_cases e : p = q
        · subst e; simp only [set_eq]; exact h2
        · simp only [set_ne _ _ e]; exact (h.rd p).1
      · intro p
        by_cases e : p = q
        · subst e; simp only [set_eq]; exact hm'
        · simp only [set_ne _ _ e]
      · intro p j hj
        have hh := hist_quiet h p j hj
        simp only [hqs]
        rw [hrs p j hj]; exact hh
      · intro p
        exact same_quiet _ outs p (hrs p)
      · intro p j _ hp
        simp only [hqs] at hp
        exact Or.inl hp
    · have hact : (gh.t q).active = true := by
        cases ha : (gh.t q).active with
        | true => rfl
        | false => rw [ha] at hin; exact absurd hkm hin
      have hget : (gh.t q).get k = (gh.t q, some (x, false)) := by
        unfold SharedReader.Spec.get
        rw [if_pos hkm, hq]
        simp only
        rw [if_neg hin]
        simp only [hact, if_true]
        rw [← hact]
      rw [hget] at h1 h2
      simp only [S.inner, h1, Outcome.bind_ok]
      exact ⟨_, gh, rfl, idle _ rfl h2⟩

theorem go_inv (ok : g.Ok) (h : InvL L g s gh outs) {w k : Nat} {got : List (Nat × Nat)}
    (hph : s.pool.ph w = .run k) (ha : s.act w = .look [] got) :
    InvL L g (s.at w (.slots (g.outs k) got [])) gh (outs ++ [.quiet]) := by
  have hg := h.run w k hph
  rw [ha] at hg
  refine moves_on ok h hph ?_ (by rw [ha]; simp [Act.notes])
  exact { busy := by simp, held := hg.held, only := hg.only, once := hg.once, asks := by simp [Act.asks]
          org := hg.org
          dst := by simp [Act.dests], dOnce := by simpa [Act.dests, Act.offers] using ok.outsOnce k
          offers := fun q hq => hq, claim := hg.claim }

theorem ofQueue_frames (s : S α) (gh : Ghost α) (hr : ∀ q, Rel (s.rd q) (gh.t q)) (q : Nat) :
    ∀ got : List (Nat × Nat), (got.map Prod.fst).Nodup → (∀ x ∈ got, x.2 = (s.rd x.1).ring.front) →
    (∀ p ∈ got.map Prod.fst, (gh.t p).q.q ≠ []) →
    (q ∉ got.map Prod.fst → ofQueue q (s.frames got) = []) ∧
    (q ∈ got.map Prod.fst → ∃ v l, (gh.t q).q.q = v :: l ∧ ofQueue q (s.frames got) = [v]) := by
  intro got
  induction got with
  | nil => intro _ _ _; simp [ofQueue, S.frames]
  | cons x got ih =>
    intro hn hf hne
    rw [List.map_cons, List.nodup_cons] at hn
    obtain ⟨i1, i2⟩ := ih hn.2 (fun y hy => hf y (List.mem_cons_of_mem _ hy))
      (fun p hp => hne p (List.mem_cons_of_mem _ hp))
    have hcons : ofQueue q (s.frames (x :: got)) =
        if x.1 = q then (s.rd x.1).ring.slots x.2 :: ofQueue q (s.frames got) else ofQueue q (s.frames got) := by
      simp only [ofQueue, S.frames, S.ring, List.map_cons, List.filter_cons, beq_iff_eq]
      split <;> rfl
    rw [hcons]
    by_cases e : x.1 = q
    · subst e
      rw [if_pos rfl]
      refine ⟨fun hq => absurd (by simp) hq, fun _ => ?_⟩
      rcases hq : (gh.t x.1).q.q with _ | ⟨v, l⟩
      · exact absurd hq (hne x.1 (by simp))
      · have hv := ((hr x.1).ring.take v l hq).2.1
        rw [hf x (by simp), hv, i1 hn.1]
        exact ⟨v, l, rfl, rfl⟩
    · rw [if_neg e]
      refine ⟨fun hq => i1 fun hm => hq (List.mem_cons_of_mem _ hm), fun hq => i2 ?_⟩
      rw [List.map_cons, List.mem_cons] at hq
      rcases hq with hq | hq
      · exact absurd hq.symm e
      · exact hq

/-- What filter `k` has in hand is marked as dealt with. -/
def Ghost.claims (gh : Ghost α) (k : Nat) (got : List (Nat × Nat)) : Ghost α :=
  { gh with c := fun q j => gh.c q j || (decide (j = k) && decide (q ∈ got.map Prod.fst)) }

/-- The frames in hand are dealt with. -/
theorem claim_inv (ok : g.Ok) (h : InvL L g s gh outs) {w k : Nat} {got : List (Nat × Nat)} {a : Act α} {o : Out α}
    (hph : s.pool.ph w = .run k) (hn : (got.map Prod.fst).Nodup)
    (hheld : ∀ q ∈ got.map Prod.fst, q ∈ g.ins k ∧ gh.Holds q k)
    (horg : ∀ x ∈ got, x.2 = (s.rd x.1).ring.front)
    (hcl : ∀ q, gh.c q k = false)
    (hgood : Good g s.rd (gh.claims k got) k a)
    (hkeep : ∀ id ∈ (s.act w).notes, id ∈ a.notes)
    (ho : o = .ran k (s.frames got) ∨ o = .skipped k (s.frames got)) :
    InvL L g (s.at w a) (gh.claims k got) (outs ++ [o]) := by
  have hho : ∀ q, handled q k [o] = ofQueue q (s.frames got) := by
    intro q; rcases ho with rfl | rfl <;> simp [handled]
  have hhj : ∀ q j, j ≠ k → handled q j [o] = [] := by
    intro q j hj; rcases ho with rfl | rfl <;> simp [handled, Ne.symm hj]
  have hmo : ∀ q, made q [o] = [] := by
    intro q; rcases ho with rfl | rfl <;> simp [made]
  have key : ∀ q, ∀ j ∈ g.dst q,
      handled q j (outs ++ [o]) ++ (gh.claims k got).rest q j = handled q j outs ++ gh.rest q j := by
    intro q j hj
    rw [handled_append]
    by_cases e : j = k
    · subst e
      rw [hho]
      obtain ⟨f1, f2⟩ := ofQueue_frames s gh (fun q => (h.rd q).1) q got hn horg
        (fun p hp => ((h.rd p).1.held (hheld p hp).2.1).2)
      by_cases hm : q ∈ got.map Prod.fst
      · obtain ⟨v, l, e1, e2⟩ := f2 hm
        obtain ⟨ha, hk⟩ := (hheld q hm).2
        rw [rest_not (gh := gh) (fun hp => by have := hp.2.2 hk; rw [hcl q] at this; simp at this), e1]
        have hp : (gh.claims j got).Past q j := by
          refine ⟨ha, fun ht => ((h.rd q).1.sub ha).2.2.1 j ht hk, fun _ => ?_⟩
          have hmt : decide (q ∈ got.map Prod.fst) = true := decide_eq_true hm
          simp only [Ghost.claims, hmt, decide_true, Bool.and_true, Bool.or_true]
        rw [rest_past hp]
        have e1' : ((gh.claims j got).t q).q.q = v :: l := e1
        rw [e1', e2, List.tail_cons, List.append_assoc, List.singleton_append]
      · rw [f1 hm, List.append_nil, rest_congr (gh := gh) (gh' := gh.claims j got) rfl]
        have hmf : decide (q ∈ got.map Prod.fst) = false := decide_eq_false hm
        simp only [Ghost.claims, hmf, Bool.and_false, Bool.or_false]
    · rw [hhj q j e, List.append_nil, rest_congr (gh := gh) (gh' := gh.claims k got) rfl]
      simp [Ghost.claims, e]
  refine goes_on ok h hph (rd' := s.rd) hgood ?_ (fun _ _ => ⟨rfl, id⟩) h.rd (fun _ => rfl) ?_
    (fun q => ⟨id, key q⟩) (fun _ _ _ hq => Or.inl hq) hkeep
  · intro q j hj
    exact ⟨by simp [Ghost.claims, hj], Iff.rfl, fun _ => rfl⟩
  · intro q j hj
    rw [key q j hj, made_append, hmo, List.append_nil]
    exact h.hist q j hj

theorem claim_of (hcl : ∀ q, gh.c q k = false) (got : List (Nat × Nat)) :
    ∀ q, (gh.claims k got).c q k = decide (q ∈ got.map Prod.fst) := by
  intro q; simp only [Ghost.claims, hcl q, Bool.false_or, decide_true, Bool.true_and]

theorem skip_inv (ok : g.Ok) (h : InvL L g s gh outs) {w k : Nat} {got : List (Nat × Nat)}
    (hph : s.pool.ph w = .run k) (ha : s.act w = .look [] got) :
    ∃ gh', InvL L g (s.at w (.drop (got.map Prod.fst) [])) gh' (outs ++ [.skipped k (s.frames got)]) := by
  have hg := h.run w k hph
  rw [ha] at hg
  have hn : (got.map Prod.fst).Nodup := hg.once
  have hcl : ∀ q, gh.c q k = false := by
    intro q; rw [hg.claim q]; simp [Act.claimed]
  refine ⟨_, claim_inv ok h hph hn hg.held hg.org hcl ?_ (by rw [ha]; simp [Act.notes]) (Or.inr rfl)⟩
  exact { busy := by simp, held := hg.held, only := hg.only, once := hn
          asks := by simp [Act.asks], org := by simp [Act.origins], dst := by simp [Act.dests]
          dOnce := by simp [Act.dests, Act.offers], offers := by simp [Act.offers]
          claim := claim_of hcl got }

theorem consumed_sublist (y : Nat → Option α) (ds : List (Nat × Nat)) :
    ((consumed y ds).map fun x => (x.1, x.2.1)).Sublist ds := by
  induction ds with
  | nil => simp [consumed]
  | cons x ds ih =>
    unfold consumed at ih ⊢
    rw [List.filterMap_cons]
    cases hy : y x.1 with
    | none => simpa using ih.trans (List.sublist_cons_self _ _)
    | some v => simpa using ih

theorem work_inv (ok : g.Ok) (h : InvL L g s gh outs) {w k : Nat} {got ds : List (Nat × Nat)}
    (hph : s.pool.ph w = .run k) (ha : s.act w = .slots [] got ds) (y : Nat → Option α) :
    ∃ gh', InvL L g (s.at w (.commit (consumed y ds) got [])) gh' (outs ++ [.ran k (s.frames got)]) := by
  have hg := h.run w k hph
  rw [ha] at hg
  have hn : (got.map Prod.fst).Nodup := hg.once
  have hcl : ∀ q, gh.c q k = false := by
    intro q; rw [hg.claim q]; simp [Act.claimed]
  have hs := consumed_sublist y ds
  refine ⟨_, claim_inv ok h hph hn hg.held hg.org hcl ?_ (by rw [ha]; simp [Act.notes]) (Or.inl rfl)⟩
  refine { busy := by simp, held := hg.held, only := hg.only, once := hn
           asks := by simp [Act.asks], org := by simp [Act.origins], dst := ?_
           dOnce := ?_, offers := by simp [Act.offers], claim := claim_of hcl got }
  · intro x hx; exact hg.dst x (hs.subset hx)
  · have hd := hg.dOnce
    simp only [Act.dests, Act.offers, List.append_nil] at hd ⊢
    exact hd.sublist (hs.map _)

theorem makeRoom_ne {t : FrameQueue.Spec α} (hcap : 2 ≤ t.cap) : t.q ≠ [] ↔ t.makeRoom.q ≠ [] := by
  unfold FrameQueue.Spec.makeRoom
  split
  · exact Iff.rfl
  · constructor
    · intro _ hcon
      have := congrArg List.length hcon
      simp at this
      omega
    · intro hne hcon
      rw [hcon] at hne
      simp at hne

/-- The writer has left queue `q` as `u`. -/
def Ghost.wrote (gh : Ghost α) (q : Nat) (u : FrameQueue.Spec α) : Ghost α :=
  { gh with t := Pool.set gh.t q { gh.t q with q := u } }

theorem wrote_holds (gh : Ghost α) (q : Nat) (u : FrameQueue.Spec α) (p j : Nat) :
    (gh.wrote q u).Holds p j ↔ gh.Holds p j := by
  unfold Ghost.Holds Ghost.wrote
  by_cases e : p = q
  · subst e; simp only [set_eq]
  · simp only [set_ne _ _ e]

theorem wrote_past (gh : Ghost α) (q : Nat) (u : FrameQueue.Spec α) (p j : Nat) :
    (gh.wrote q u).Past p j ↔ gh.Past p j := by
  unfold Ghost.Past Ghost.wrote
  by_cases e : p = q
  · subst e; simp only [set_eq]
  · simp only [set_ne _ _ e]

theorem slot_inv (ok : g.Ok) (h : InvL L g s gh outs) {w k q : Nat} {todo : List Nat} {got ds : List (Nat × Nat)}
    (hph : s.pool.ph w = .run k) (ha : s.act w = .slots (q :: todo) got ds) :
    ∃ s' gh', s.inner g w k (s.act w) (.slot w) = .ok (s', .quiet) ∧ InvL L g s' gh' (outs ++ [.quiet]) := by
  have hg := h.run w k hph
  rw [ha] at hg
  rw [ha]
  obtain ⟨hrel, hmax⟩ := h.rd q
  obtain ⟨r', hr', hrel', hroom, hsl, hfr, hm⟩ := hrel.ring.writerSlot_true
  simp only [S.inner, S.ring, hr', Outcome.bind_ok, S.onRing]
  have hcap := hrel.ring.hcap
  have hne := makeRoom_ne (t := (gh.t q).q) (by omega)
  have hqo : q ∈ g.outs k := hg.offers q (by simp [Act.offers])
  have hsrc := ok.outs _ _ hqo
  have hdo := hg.dOnce
  simp only [Act.dests, Act.offers] at hdo
  have hnot : ∀ x ∈ ds, x.1 ≠ q := by
    rintro x hx rfl
    exact (List.nodup_append.1 hdo).2.2 x.1 (List.mem_map_of_mem hx) x.1 (by simp) rfl
  have hfr' : ∀ p, ((Pool.set s.rd q { s.rd q with ring := r' }) p).ring.front = (s.rd p).ring.front := by
    intro p
    by_cases e : p = q
    · subst e; rw [set_eq]; exact hfr
    · rw [set_ne _ _ e]
  have hne' : ∀ p, (gh.t p).q.q ≠ [] ↔ ((gh.wrote q (gh.t q).q.makeRoom).t p).q.q ≠ [] := by
    intro p
    unfold Ghost.wrote
    by_cases e : p = q
    · subst e; simp only [set_eq]; exact hne
    · simp only [set_ne _ _ e]
  refine ⟨_, gh.wrote q (gh.t q).q.makeRoom, rfl, ?_⟩
  refine goes_on ok h hph ?_ ?_ ?_ ?_ ?_ ?_ ?_ ?_ (by rw [ha]; simp [Act.notes])
  · refine { busy := by simp, held := ?_, only := ?_, once := hg.once, asks := hg.asks, org := ?_, dst := ?_,
             dOnce := ?_, offers := ?_, claim := hg.claim }
    · intro p hp
      exact ⟨(hg.held p hp).1, (wrote_holds ..).2 (hg.held p hp).2⟩
    · intro p hp
      exact hg.only p ((wrote_holds ..).1 hp)
    · intro x hx
      rw [hfr' x.1]; exact hg.org x hx
    · intro x hx
      simp only [Act.dests, List.mem_append, List.mem_singleton] at hx
      unfold Ghost.wrote
      rcases hx with hx | rfl
      · simp only [set_ne _ _ (hnot x hx)]
        exact hg.dst x hx
      · simp only [set_eq]
        exact ⟨hqo, trivial, hroom⟩
    · simp only [Act.dests, Act.offers, List.map_append, List.map_cons, List.map_nil, List.append_assoc,
        List.singleton_append]
      exact hdo
    · intro p hp; exact hg.offers p (List.mem_cons_of_mem _ hp)
  · intro p j _
    exact ⟨rfl, wrote_holds .., fun _ => hfr' p⟩
  · intro p hp
    have e : p ≠ q := by rintro rfl; exact hp hsrc
    unfold Ghost.wrote
    simp only [set_ne _ _ e]; exact ⟨trivial, id⟩
  · intro p
    unfold Ghost.wrote
    by_cases e : p = q
    · subst e; simp only [set_eq]; exact ⟨ring_rel hrel hrel' hfr hne.1, by omega⟩
    · simp only [set_ne _ _ e]; exact h.rd p
  · intro p
    unfold Ghost.wrote
    by_cases e : p = q
    · subst e; simp only [set_eq]
    · simp only [set_ne _ _ e]
  · intro p j hj
    have hh := hist_quiet h p j hj
    have hpast := wrote_past gh q (gh.t q).q.makeRoom p j
    by_cases e : p = q
    · subst e
      have et : ((gh.wrote p (gh.t p).q.makeRoom).t p).q = (gh.t p).q.makeRoom := by
        unfold Ghost.wrote; simp only [set_eq]
      simp only [Ghost.rest, hpast, et] at hh ⊢
      unfold FrameQueue.Spec.makeRoom
      by_cases hc : (gh.t p).q.q.length < (gh.t p).q.cap
      · rw [if_pos hc]; exact hh
      · rw [if_neg hc]
        simp only
        have ht : (if gh.Past p j then (gh.t p).q.q.dropLast.tail else (gh.t p).q.q.dropLast) =
            (if gh.Past p j then (gh.t p).q.q.tail else (gh.t p).q.q).dropLast := by
          split
          · rw [List.tail_dropLast]
          · rfl
        rw [ht]
        have hpos : 0 < (if gh.Past p j then (gh.t p).q.q.tail else (gh.t p).q.q).length := by
          split
          · rw [List.length_tail]; omega
          · omega
        refine ⟨(List.Sublist.append_left (List.dropLast_sublist _) _).trans hh.1, ?_⟩
        rw [hh.2, List.length_append, List.length_append, List.length_dropLast]
        omega
    · have et : (gh.wrote q (gh.t q).q.makeRoom).t p = gh.t p := by
        unfold Ghost.wrote; simp only [set_ne _ _ e]
      rw [rest_congr (gh := gh) et rfl, et]
      exact hh
  · intro p
    by_cases e : p = q
    · subst e
      have et : ((gh.wrote p (gh.t p).q.makeRoom).t p).q = (gh.t p).q.makeRoom := by
        unfold Ghost.wrote; simp only [set_eq]
      refine ⟨fun l => if (gh.t p).q.q.length < (gh.t p).q.cap then l else l.dropLast, fun j hj => ?_⟩
      have hpast := wrote_past gh p (gh.t p).q.makeRoom p j
      simp only [Ghost.rest, hpast, et, handled_append, handled, List.append_nil]
      unfold FrameQueue.Spec.makeRoom
      by_cases hc : (gh.t p).q.q.length < (gh.t p).q.cap
      · rw [if_pos hc, if_pos hc]
      · rw [if_neg hc, if_neg hc]
        simp only
        have hpos : (gh.t p).q.q ≠ [] ∧ (gh.t p).q.q.tail ≠ [] := by
          constructor
          · intro hn; rw [hn] at hc; simp at hc; omega
          · intro hn
            have := congrArg List.length hn
            rw [List.length_tail] at this
            simp at this
            omega
        by_cases hp : gh.Past p j
        · rw [if_pos hp, if_pos hp, List.dropLast_append_of_ne_nil hpos.2, List.tail_dropLast]
        · rw [if_neg hp, if_neg hp, List.dropLast_append_of_ne_nil hpos.1]
    · exact same_quiet _ outs p fun j _ =>
        rest_congr (by unfold Ghost.wrote; simp only [set_ne _ _ e]) rfl
  · intro p j _ hp
    exact Or.inl ((hne' p).2 hp)

theorem commit_inv (ok : g.Ok) (h : InvL L g s gh outs) {w k q i : Nat} {v : α} {todo : List (Nat × Nat × α)}
    {got : List (Nat × Nat)} {en : List Int}
    (hph : s.pool.ph w = .run k) (ha : s.act w = .commit ((q, i, v) :: todo) got en) :
    ∃ s' gh', s.inner g w k (s.act w) (.commit w) = .ok (s', .put q v) ∧ InvL L g s' gh' (outs ++ [.put q v]) := by
  have hg := h.run w k hph
  rw [ha] at hg
  rw [ha]
  obtain ⟨hqo, hi, hroom⟩ := hg.dst (q, i) (by simp [Act.dests])
  simp only at hqo hi hroom
  subst hi
  have hsrc := ok.outs _ _ hqo
  obtain ⟨hrel, hmax⟩ := h.rd q
  obtain ⟨r', hr', hrel'⟩ := hrel.ring.put hroom v
  have hsame : r'.front = (s.rd q).ring.front ∧ r'.max = (s.rd q).ring.max := by
    unfold Ring.addFrame at hr'
    have e1 : ((s.rd q).ring.write (s.rd q).ring.rear v).max = (s.rd q).ring.max := rfl
    rw [e1, if_neg (by omega)] at hr'
    split at hr' <;> (simp at hr'; subst hr'; exact ⟨rfl, rfl⟩)
  simp only [S.inner, S.ring, hr', Outcome.bind_ok, S.onRing]
  have hdo := hg.dOnce
  simp only [Act.dests, Act.offers, List.map_cons, List.append_nil, List.nodup_cons] at hdo
  have hnot : ∀ x ∈ todo.map (fun x => (x.1, x.2.1)), x.1 ≠ q := by
    rintro x hx rfl
    exact hdo.1 (List.mem_map_of_mem hx)
  have hfr' : ∀ p, ((Pool.set s.rd q { s.rd q with ring := r' }) p).ring.front = (s.rd p).ring.front := by
    intro p
    by_cases e : p = q
    · subst e; rw [set_eq]; exact hsame.1
    · rw [set_ne _ _ e]
  have htail : ∀ j, (if gh.Past q j then ((gh.t q).q.q ++ [v]).tail else (gh.t q).q.q ++ [v]) =
      (if gh.Past q j then (gh.t q).q.q.tail else (gh.t q).q.q) ++ [v] := by
    intro j
    split
    · rename_i hc
      rcases hq : (gh.t q).q.q with _ | ⟨z, l⟩
      · exact absurd hq (hrel.held hc.1).2
      · rfl
    · rfl
  refine ⟨_, gh.wrote q { (gh.t q).q with q := (gh.t q).q.q ++ [v] }, rfl, ?_⟩
  refine goes_on ok h hph ?_ ?_ ?_ ?_ ?_ ?_ ?_ ?_ ?_
  · refine { busy := by simp, held := ?_, only := ?_, once := hg.once, asks := hg.asks, org := by simp [Act.origins]
             dst := ?_, dOnce := ?_, offers := by simp [Act.offers], claim := hg.claim }
    · intro p hp
      exact ⟨(hg.held p hp).1, (wrote_holds ..).2 (hg.held p hp).2⟩
    · intro p hp
      exact hg.only p ((wrote_holds ..).1 hp)
    · intro x hx
      simp only [Act.dests] at hx
      unfold Ghost.wrote
      simp only [set_ne _ _ (hnot x hx)]
      exact hg.dst x (by simp only [Act.dests, List.map_cons]; exact List.mem_cons_of_mem _ hx)
    · simpa [Act.dests, Act.offers] using hdo.2
  · intro p j _
    exact ⟨rfl, wrote_holds .., fun _ => hfr' p⟩
  · intro p hp
    have e : p ≠ q := by rintro rfl; exact hp hsrc
    unfold Ghost.wrote
    simp only [set_ne _ _ e]; exact ⟨trivial, id⟩
  · intro p
    unfold Ghost.wrote
    by_cases e : p = q
    · subst e; simp only [set_eq]; exact ⟨ring_rel hrel hrel' hsame.1 (by simp), by omega⟩
    · simp only [set_ne _ _ e]; exact h.rd p
  · intro p
    unfold Ghost.wrote
    by_cases e : p = q
    · subst e; simp only [set_eq]
    · simp only [set_ne _ _ e]
  · intro p j hj
    have hh := h.hist p j hj
    have hpast := wrote_past gh q { (gh.t q).q with q := (gh.t q).q.q ++ [v] } p j
    rw [handled_append, made_append]
    by_cases e : p = q
    · subst e
      have et : ((gh.wrote p { (gh.t p).q with q := (gh.t p).q.q ++ [v] }).t p).q =
          { (gh.t p).q with q := (gh.t p).q.q ++ [v] } := by
        unfold Ghost.wrote; simp only [set_eq]
      simp only [Ghost.rest, hpast, et, handled, made, if_true, List.append_nil] at hh ⊢
      rw [htail j, ← List.append_assoc]
      refine ⟨List.Sublist.append hh.1 (List.Sublist.refl _), ?_⟩
      rw [List.length_append, hh.2, List.length_append (bs := [v])]
      simp only [List.length_cons, List.length_nil]
      omega
    · have e' : q ≠ p := Ne.symm e
      have et : (gh.wrote q { (gh.t q).q with q := (gh.t q).q.q ++ [v] }).t p = gh.t p := by
        unfold Ghost.wrote; simp only [set_ne _ _ e]
      rw [rest_congr (gh := gh) et rfl, et]
      simp only [handled, made, if_neg e', List.append_nil]
      exact hh
  · intro p
    by_cases e : p = q
    · subst e
      have et : ((gh.wrote p { (gh.t p).q with q := (gh.t p).q.q ++ [v] }).t p).q =
          { (gh.t p).q with q := (gh.t p).q.q ++ [v] } := by
        unfold Ghost.wrote; simp only [set_eq]
      refine ⟨fun l => l ++ [v], fun j hj => ?_⟩
      have hpast := wrote_past gh p { (gh.t p).q with q := (gh.t p).q.q ++ [v] } p j
      simp only [Ghost.rest, hpast, et, handled_append, handled, List.append_nil]
      rw [htail j, ← List.append_assoc]
    · refine ⟨id, fun j hj => ?_⟩
      rw [rest_congr (gh := gh) (gh' := gh.wrote q { (gh.t q).q with q := (gh.t q).q.q ++ [v] })
        (by unfold Ghost.wrote; simp only [set_ne _ _ e]) rfl]
      simp [handled_append, handled]
  · intro p j hj hp
    by_cases e : p = q
    · subst e
      refine Or.inr ⟨hsrc, ?_⟩
      simp only [Act.notes]
      exact List.mem_append_left _ (List.mem_map_of_mem hj)
    · unfold Ghost.wrote at hp
      simp only [set_ne _ _ e] at hp; exact Or.inl hp
  · intro id hid
    rw [ha] at hid
    simp only [Act.notes] at hid ⊢
    exact List.mem_append_right _ hid

theorem leave_inv (ok : g.Ok) (h : InvL L g s gh outs) {w k : Nat} {got : List (Nat × Nat)} {en : List Int}
    (hph : s.pool.ph w = .run k) (ha : s.act w = .commit [] got en) :
    InvL L g (s.at w (.drop (got.map Prod.fst) en)) gh (outs ++ [.quiet]) := by
  have hg := h.run w k hph
  rw [ha] at hg
  refine moves_on ok h hph ?_ (by rw [ha]; simp [Act.notes])
  exact { busy := by simp, held := hg.held, only := hg.only, once := hg.once, asks := hg.asks, org := hg.org
          dst := by simp [Act.dests], dOnce := by simp [Act.dests, Act.offers], offers := by simp [Act.offers]
          claim := hg.claim }

/-- What releasing a frame does to a queue: who else has it, who has dealt with what, stays. -/
theorem release_rest {r : Rd α} {gh : Ghost α} {q k : Nat} (hrel : Rel r (gh.t q)) (hh : gh.Holds q k)
    (hc : gh.c q k = true) (c' : Nat → Nat → Bool) (h1 : c' q k = false) (h2 : ∀ j, j ≠ k → c' q j = gh.c q j) :
    (∀ j ∈ (gh.t q).members,
      (⟨Pool.set gh.t q ((gh.t q).remove k).1, c'⟩ : Ghost α).rest q j = gh.rest q j) ∧
    (∀ j, (⟨Pool.set gh.t q ((gh.t q).remove k).1, c'⟩ : Ghost α).Holds q j ↔ j ≠ k ∧ gh.Holds q j) := by
  obtain ⟨ha, hk⟩ := hh
  obtain ⟨s1, s2, s3, s4⟩ := hrel.sub ha
  have hnt : k ∉ (gh.t q).todo := fun ht => s3 k ht hk
  have hpk : gh.Past q k := ⟨ha, hnt, fun _ => hc⟩
  by_cases hd : (gh.t q).todo = [] ∧ (gh.t q).hold.filter (· ≠ k) = []
  · have hall : ∀ j ∈ (gh.t q).hold, j = k := by
      intro j hj
      apply Decidable.byContradiction
      intro e
      have : j ∈ (gh.t q).hold.filter (· ≠ k) := List.mem_filter.2 ⟨hj, by simpa using e⟩
      rw [hd.2] at this; simp at this
    rcases hq : (gh.t q).q.q with _ | ⟨v, l⟩
    · exact absurd hq (hrel.held ha).2
    · have hrem : ((gh.t q).remove k).1 =
          { gh.t q with q := { (gh.t q).q with q := l, last := v }, active := false, hold := [] } := by
        unfold SharedReader.Spec.remove
        simp only
        rw [if_pos hd, hq]
      rw [hrem]
      constructor
      · intro j hj
        rw [rest_not, rest_past (gh := gh)]
        · simp only [set_eq, hq, List.tail_cons]
        · refine ⟨ha, by rw [hd.1]; simp, fun hm => ?_⟩
          rw [hall j hm]; exact hc
        · rintro ⟨h3, _⟩
          simp only [set_eq] at h3
          simp at h3
      · intro j
        constructor
        · rintro ⟨h3, _⟩
          simp only [set_eq] at h3
          simp at h3
        · rintro ⟨e, _, hm⟩
          exact absurd (hall j hm) e
  · have hrem : ((gh.t q).remove k).1 = { gh.t q with hold := (gh.t q).hold.filter (· ≠ k) } := by
      unfold SharedReader.Spec.remove
      simp only
      rw [if_neg hd]
    rw [hrem]
    constructor
    · intro j hj
      by_cases e : j = k
      · subst e
        rw [rest_past hpk, rest_past]
        · simp only [set_eq]
        · refine ⟨by simp only [set_eq]; exact ha, by simp only [set_eq]; exact hnt, fun hm => ?_⟩
          simp only [set_eq] at hm
          simp at hm
      · unfold Ghost.rest Ghost.Past
        simp only [set_eq, List.mem_filter, h2 j e, e, ne_eq, not_false_eq_true, decide_true, and_true]
    · intro j
      unfold Ghost.Holds
      simp only [set_eq, List.mem_filter, ne_eq, decide_not, Bool.not_eq_true', decide_eq_false_iff_not]
      exact ⟨fun ⟨a, b, c⟩ => ⟨c, a, b⟩, fun ⟨c, a, b⟩ => ⟨a, b, c⟩⟩

theorem drop_inv (ok : g.Ok) (h : InvL L g s gh outs) {w k q : Nat} {todo : List Nat} {en : List Int}
    (hph : s.pool.ph w = .run k) (ha : s.act w = .drop (q :: todo) en) :
    ∃ s' gh', s.inner g w k (s.act w) (.drop w) = .ok (s', .quiet) ∧ InvL L g s' gh' (outs ++ [.quiet]) := by
  have hg := h.run w k hph
  rw [ha] at hg
  rw [ha]
  obtain ⟨hqi, hqh⟩ := hg.held q (by simp [Act.held])
  have hck : gh.c q k = true := by rw [hg.claim q]; simp [Act.claimed]
  have ho := hg.once
  simp only [Act.held, List.nodup_cons] at ho
  obtain ⟨hrel, hmax⟩ := h.rd q
  obtain ⟨r', hr', hrel'⟩ := SharedReader.step_rel (s.rd q) (gh.t q) (.remove k) hqh hrel
  simp only [SharedReader.Rd.step, SharedReader.Spec.step] at hr' hrel'
  rcases hrf : (s.rd q).removeFrame k with ⟨r0, b0⟩ | _ | _ <;> rw [hrf] at hr' <;> simp at hr'
  obtain ⟨rfl, hb0⟩ := hr'
  obtain ⟨hrest, hholds⟩ := release_rest hrel hqh hck (fun p j => if p = q ∧ j = k then false else gh.c p j)
    (by simp) (by intro j e; simp [e])
  -- the ring either stays or advances, nobody else holding the frame
  have hring : r0.ring.rear = (s.rd q).ring.rear ∧ r0.ring.max = (s.rd q).ring.max ∧
      ((r0.ring = (s.rd q).ring) ∨ ∀ j, j ≠ k → ¬ gh.Holds q j) ∧
      (((gh.t q).remove k).1.q.q.length ≤ (gh.t q).q.q.length) ∧
      (((gh.t q).remove k).1.q.cap = (gh.t q).q.cap) ∧ (((gh.t q).remove k).1.q.lost = (gh.t q).q.lost) ∧
      (((gh.t q).remove k).1.members = (gh.t q).members) := by
    obtain ⟨haq, hkq⟩ := hqh
    have hcaps := hrel'.ring.hcap
    have hcaps0 := hrel.ring.hcap
    unfold SharedReader.Spec.remove at hcaps ⊢
    simp only at hcaps ⊢
    by_cases hd : (gh.t q).todo = [] ∧ (gh.t q).hold.filter (· ≠ k) = []
    · rw [if_pos hd] at hcaps ⊢
      rcases hq : (gh.t q).q.q with _ | ⟨v, l⟩
      · exact absurd hq (hrel.held haq).2
      · rw [hq] at hcaps
        simp only at hcaps ⊢
        obtain ⟨_, _, r2, e1, _, e3, _, _⟩ := hrel.ring.take v l hq
        have hrr : r0.ring.rear = (s.rd q).ring.rear := by
          unfold SharedReader.Rd.removeFrame at hrf
          simp only at hrf
          split at hrf
          · split at hrf
            · simp at hrf
            · split at hrf
              · simp at hrf; rw [← hrf.1]
              · rw [e1] at hrf
                simp at hrf
                rw [← hrf.1]; exact e3
          · simp at hrf; rw [← hrf.1]
        refine ⟨hrr, by omega, Or.inr ?_, by simp, trivial, trivial, trivial⟩
        rintro j e ⟨_, hm⟩
        have : j ∈ (gh.t q).hold.filter (· ≠ k) := List.mem_filter.2 ⟨hm, by simpa using e⟩
        rw [hd.2] at this; simp at this
    · rw [if_neg hd] at hcaps ⊢
      simp only at hcaps ⊢
      have hb : b0 = false := by
        rw [hb0]
        unfold SharedReader.Spec.remove
        simp only
        rw [if_neg hd]
      have hrr : r0.ring = (s.rd q).ring := by
        unfold SharedReader.Rd.removeFrame at hrf
        simp only at hrf
        split at hrf
        · split at hrf
          · simp at hrf
          · split at hrf
            · simp at hrf; rw [← hrf.1]
            · rcases hq : (gh.t q).q.q with _ | ⟨v, l⟩
              · exact absurd hq (hrel.held haq).2
              · obtain ⟨_, _, r2, e1, _, e3, _, _⟩ := hrel.ring.take v l hq
                rw [e1] at hrf
                simp [hb] at hrf
        · simp at hrf; rw [← hrf.1]
      rw [hrr]
      exact ⟨rfl, rfl, Or.inl rfl, Nat.le_refl _, trivial, trivial, trivial⟩
  obtain ⟨hrear, hmx, hfront, hlen, hcap, hlost, hmem⟩ := hring
  simp only [S.inner, hrf, Outcome.bind_ok]
  refine ⟨_, ⟨Pool.set gh.t q ((gh.t q).remove k).1, fun p j => if p = q ∧ j = k then false else gh.c p j⟩, rfl, ?_⟩
  refine goes_on ok h hph ?_ ?_ ?_ ?_ ?_ ?_ ?_ ?_ (by rw [ha]; simp [Act.notes])
  · refine { busy := by simp, held := ?_, only := ?_, once := ?_, asks := by simp [Act.asks]
             org := by simp [Act.origins], dst := by simp [Act.dests], dOnce := by simp [Act.dests, Act.offers]
             offers := by simp [Act.offers], claim := ?_ }
    · intro p hp
      simp only [Act.held] at hp
      have e : p ≠ q := by rintro rfl; exact ho.1 hp
      unfold Ghost.Holds
      simp only [set_ne _ _ e]
      exact hg.held p (List.mem_cons_of_mem _ hp)
    · intro p hp
      by_cases e : p = q
      · subst e
        exact absurd rfl ((hholds k).1 hp).1
      · unfold Ghost.Holds at hp
        simp only [set_ne _ _ e] at hp
        have := hg.only p hp
        simp only [Act.held, List.mem_cons, e, false_or] at this ⊢
        exact this
    · exact ho.2
    · intro p
      by_cases e : p = q
      · subst e
        simp only [and_self, if_true, Act.claimed]
        exact (decide_eq_false ho.1).symm
      · simp only [e, false_and, if_false]
        rw [hg.claim p]
        simp only [Act.claimed, List.mem_cons, e, false_or]
        exact decide_eq_decide.2 Iff.rfl
  · intro p j hj
    refine ⟨by simp [hj], ?_, ?_⟩
    · by_cases e : p = q
      · subst e
        exact (hholds j).trans ⟨fun x => x.2, fun x => ⟨hj, x⟩⟩
      · unfold Ghost.Holds; simp only [set_ne _ _ e]
    · intro hh
      by_cases e : p = q
      · subst e
        rw [set_eq]
        rcases hfront with hf | hf
        · rw [hf]
        · exact absurd hh (hf j hj)
      · rw [set_ne _ _ e]
  · intro p _
    by_cases e : p = q
    · subst e
      simp only [set_eq]
      exact ⟨hrear, fun hlt => by omega⟩
    · simp only [set_ne _ _ e]; exact ⟨trivial, id⟩
  · intro p
    by_cases e : p = q
    · subst e; simp only [set_eq]; exact ⟨hrel', by omega⟩
    · simp only [set_ne _ _ e]; exact h.rd p
  · intro p
    by_cases e : p = q
    · subst e; simp only [set_eq]; exact hmem
    · simp only [set_ne _ _ e]
  · intro p j hj
    have hh := hist_quiet h p j hj
    by_cases e : p = q
    · subst e
      rw [hrest j (by rw [h.members p]; exact hj)]
      simp only [set_eq, hlost]
      exact hh
    · rw [rest_congr (gh := gh) (by simp only [set_ne _ _ e]) (by simp [e])]
      simp only [set_ne _ _ e]
      exact hh
  · intro p
    refine same_quiet _ outs p fun j hj => ?_
    by_cases e : p = q
    · subst e; exact hrest j (by rw [h.members p]; exact hj)
    · exact rest_congr (by simp only [set_ne _ _ e]) (by simp [e])
  · intro p j _ hp
    left
    by_cases e : p = q
    · subst e; exact (hrel.held hqh.1).2
    · simp only [set_ne _ _ e] at hp; exact hp

theorem inner_inv (ok : g.Ok) (h : InvL L g s gh outs) {w k : Nat} (hph : s.pool.ph w = .run k) (op : Op α) 
    (hw : op.by = some w) :
    ∃ s' o gh', s.inner g w k (s.act w) op = .ok (s', o) ∧ InvL L g s' gh' (outs ++ [o]) := by
  have stay : ∃ s' o gh', (Outcome.ok (s, Out.quiet) : Outcome (S α × Out α)) = .ok (s', o) ∧ InvL L g s' gh' (outs ++ [o]) :=
    ⟨s, .quiet, gh, rfl, h.quiet⟩
  cases op <;> simp only [Op.by, Option.some.injEq, reduceCtorEq] at hw <;> subst hw <;>
    rcases ha : s.act _ with _ | _ | ⟨_ | ⟨q, todo⟩, got⟩ | ⟨_ | ⟨q, todo⟩, got, ds⟩ | ⟨_ | ⟨⟨q, i, v⟩, todo⟩, got, en⟩ | ⟨_ | ⟨q, todo⟩, en⟩ <;>
    first
    | exact stay
    | exact ⟨_, _, gh, rfl, begin_inv ok h hph ha _⟩
    | exact ⟨_, _, gh, rfl, go_inv ok h hph ha⟩
    | exact ⟨_, _, gh, rfl, leave_inv ok h hph ha⟩
    | (obtain ⟨gh', h'⟩ := skip_inv ok h hph ha; exact ⟨_, _, gh', rfl, h'⟩)
    | (obtain ⟨gh', h'⟩ := work_inv ok h hph ha _; exact ⟨_, _, gh', rfl, h'⟩)
    | (rw [← ha]; obtain ⟨s', gh', h1, h2⟩ := look_inv ok h hph ha; exact ⟨s', _, gh', h1, h2⟩)
    | (rw [← ha]; obtain ⟨s', gh', h1, h2⟩ := slot_inv ok h hph ha; exact ⟨s', _, gh', h1, h2⟩)
    | (rw [← ha]; obtain ⟨s', gh', h1, h2⟩ := commit_inv ok h hph ha; exact ⟨s', _, gh', h1, h2⟩)
    | (rw [← ha]; obtain ⟨s', gh', h1, h2⟩ := drop_inv ok h hph ha; exact ⟨s', _, gh', h1, h2⟩)

theorem step_inv (ok : g.Ok) (h : InvL L g s gh outs) (op : Op α) :
    ∃ s' o gh', s.step g op = .ok (s', o) ∧ InvL L g s' gh' (outs ++ [o]) := by
  have stay : ∃ s' o gh', (Outcome.ok (s, Out.quiet) : Outcome (S α × Out α)) = .ok (s', o) ∧ InvL L g s' gh' (outs ++ [o]) :=
    ⟨s, .quiet, gh, rfl, h.quiet⟩
  cases op with
  | add k => obtain ⟨s', o, h1, h2⟩ := step_add h k; exact ⟨s', o, gh, h1, h2⟩
  | pick w now => obtain ⟨s', o, h1, h2⟩ := step_pick h w now; exact ⟨s', o, gh, h1, h2⟩
  | done w t => obtain ⟨s', o, h1, h2⟩ := step_done h w t; exact ⟨s', o, gh, h1, h2⟩
  | post w => obtain ⟨s', o, h1, h2⟩ := step_post h w; exact ⟨s', o, gh, h1, h2⟩
  | begin w | look w | go w | skip w | slot w | work w | commit w | drop w =>
    unfold S.step
    simp only [Op.by]
    rcases hph : s.pool.ph w with _ | k | k
    · exact stay
    · exact inner_inv ok h hph _ rfl
    · exact stay

end

theorem init_inv (g : Graph) (ok : g.Ok) (size : Nat → Nat) (hs : ∀ q, 3 ≤ size q) (d : Nat → Nat → α)
    (time : Nat → Nat) : ∃ gh, Inv g (S.init g size d time) gh [] := by
  refine ⟨{ t := fun q => { q := FrameQueue.Spec.init (size q) (d q), members := g.dst q, active := false
                            todo := [], hold := [] }
            c := fun _ _ => false }, ?_⟩
  refine { pinv := Pool.init_inv _ _, ident := fun _ => rfl, freed := fun _ => rfl,
           idle := fun _ _ => rfl, run := ?_, post := ?_, free := ?_, rd := ?_, members := fun _ => rfl,
           hist := ?_, same := ?_, wake := ?_, head := ?_ }
  · simp [S.init, P.init]
  · simp [S.init, P.init]
  · intro _ _ q
    exact ⟨rfl, fun hh => by have := hh.1; simp at this⟩
  · intro q
    constructor
    · refine ⟨FrameQueue.create_rel _ (by have := hs q; omega) _, rfl, ?_, ok.dstOnce q, rfl, fun _ => rfl, ?_, ?_, ?_⟩
      · show ((g.dst q).map fun k => (k, false, false)).map (·.1) = g.dst q
        rw [List.map_map]; exact List.map_id _
      all_goals (intro h0; simp at h0)
    · have := hs q
      show 3 ≤ (if size q > 250 then 250 else size q)
      by_cases h : size q > 250
      · rw [if_pos h]; omega
      · rw [if_neg h]; exact this
  · intro q k _
    rw [rest_not (fun hp => by have := hp.1; simp at this)]
    simp [handled, made, FrameQueue.Spec.init]
  · intro q k _ j _
    rw [rest_not (fun hp => by have := hp.1; simp at this), rest_not (fun hp => by have := hp.1; simp at this)]
    simp [handled]
  · simp [S.init, P.init]
  · simp [S.init, P.init]

theorem run_inv {g : Graph} (ok : g.Ok) (ops : List (Op α)) :
    ∀ {s : S α} {gh : Ghost α} {outs : List (Out α)}, Inv g s gh outs →
    ∃ s' os gh', runOps (S.step g) s ops = .ok (s', os) ∧ Inv g s' gh' (outs ++ os) := by
  induction ops with
  | nil => intro s gh outs h; exact ⟨s, [], gh, rfl, by simpa using h⟩
  | cons op ops ih =>
    intro s gh outs h
    obtain ⟨s1, o, g1, h1, h2⟩ := step_inv ok h op
    obtain ⟨s2, os, g2, h3, h4⟩ := ih h2
    refine ⟨s2, o :: os, g2, by simp [runOps, h1, h3], by simpa using h4⟩

end Lms.Net
