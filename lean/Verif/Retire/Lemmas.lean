import Verif.Retire.Spec

/-! Lemmas about filters that come and go. -/

namespace Lms.Retire

open Rewire (D DI)
open Net (S Graph Ghost)
open Pool (P)

variable {α : Type}

/-! ### The pool -/

theorem off_step {p p' : P} {op : Pool.Op} {o : Pool.Out} {k : Nat} (hi : Pool.Inv p) (hid : ∀ k : Nat, p.ident k = (k : Int))
    (h : Off p k) (hn : op ≠ .add k) (hs : p.step op = .ok (p', o)) : Off p' k := by
  obtain ⟨h1, h2, h3⟩ := h
  cases op with
  | add j =>
    have hj : k ≠ j := fun e => hn (by rw [e])
    simp only [P.step] at hs
    (repeat' split at hs) <;> simp at hs <;> rw [← hs.1]
    · exact ⟨h1, h2, h3⟩
    · exact ⟨h1, h2, h3⟩
    · refine ⟨?_, fun hm => ?_, h3⟩
      · show Pool.set p.reg (p.ident j) (some j) (k : Int) ≠ some k
        rw [hid, Pool.set_ne _ _ (by omega)]
        exact h1
      · rcases Flow.pushBack_mem _ _ _ _ hm with e | e
        · exact h2 e
        · exact hj e
    · exact ⟨h1, h2, h3⟩
  | remove id =>
    simp only [P.step] at hs
    (repeat' split at hs) <;> simp at hs <;> rw [← hs.1]
    · exact ⟨h1, h2, h3⟩
    · exact ⟨h1, h2, h3⟩
    · refine ⟨?_, h2, h3⟩
      show Pool.set p.reg id none (k : Int) ≠ some k
      unfold Pool.set
      split
      · simp
      · exact h1
  | reap j =>
    simp only [P.step] at hs
    (repeat' split at hs) <;> simp at hs <;> rw [← hs.1] <;> exact ⟨h1, h2, h3⟩
  | pick w now =>
    simp only [P.step] at hs
    split at hs
    · simp at hs; rw [← hs.1]; exact ⟨h1, h2, h3⟩
    · split at hs
      · cases hp : p.pick w now with
        | ub => rw [hp] at hs; simp at hs
        | hang => rw [hp] at hs; simp at hs
        | ok y =>
          obtain ⟨p1, o1⟩ := y
          rw [hp] at hs
          simp at hs
          rw [← hs.1]
          rcases Pool.pick_ok hp with ⟨_, e, _⟩ | ⟨j, a, l, _, hf, _, _, hq, e⟩
          · rw [e]; exact ⟨h1, h2, h3⟩
          · have hj : j ≠ k := by
              rintro rfl
              exact h2 (Pool.firstIdle_some hf).1
            rw [e]
            refine ⟨h1, fun hm => h2 (by rw [hq]; exact List.mem_cons_of_mem _ hm), fun v => ?_⟩
            show Pool.set p.ph w (.run j) v ≠ _ ∧ Pool.set p.ph w (.run j) v ≠ _
            unfold Pool.set
            split
            · exact ⟨fun e => hj (Pool.Ph.run.inj e), by simp⟩
            · exact h3 v
      · simp at hs; rw [← hs.1]; exact ⟨h1, h2, h3⟩
  | done w t =>
    simp only [P.step] at hs
    split at hs
    · simp at hs; rw [← hs.1]; exact ⟨h1, h2, h3⟩
    · split at hs
      · rename_i j hw
        split at hs
        · simp at hs
        · simp at hs
          rw [← hs.1]
          refine ⟨h1, h2, fun v => ?_⟩
          show Pool.set p.ph w (.post j) v ≠ _ ∧ Pool.set p.ph w (.post j) v ≠ _
          unfold Pool.set
          split
          · refine ⟨by simp, fun e => ?_⟩
            have := Pool.Ph.post.inj e
            exact (h3 w).1 (by rw [hw, this])
          · exact h3 v
      · simp at hs; rw [← hs.1]; exact ⟨h1, h2, h3⟩
  | post w ids pending =>
    simp only [P.step] at hs
    split at hs
    · split at hs
      · simp at hs
      · rename_i j hw _
        cases hp : p.pushAll (if pending then ids ++ [p.ident j] else ids) with
        | ub => rw [hp] at hs; simp at hs
        | hang => rw [hp] at hs; simp at hs
        | ok p1 =>
          rw [hp] at hs
          simp at hs
          obtain ⟨q, e⟩ := Pool.pushAll_ok _ _ _ hp
          have hm := Flow.pushAll_mem _ _ _ hp k
          rw [← hs.1]
          rw [e] at hm ⊢
          refine ⟨h1, fun hk => ?_, fun v => ?_⟩
          · rcases hm hk with a | ⟨id, a⟩
            · exact h2 a
            · have := hi.reg _ _ a
              rw [hid] at this
              rw [← this] at a
              exact h1 a
          · show Pool.set p.ph w .idle v ≠ _ ∧ Pool.set p.ph w .idle v ≠ _
            unfold Pool.set
            split
            · exact ⟨by simp, by simp⟩
            · exact h3 v
    · simp at hs; rw [← hs.1]; exact ⟨h1, h2, h3⟩

/-! ### The network -/

theorem off_flow {L : Nat → Nat → Prop} {g : Graph} {s s' : S α} {gh : Ghost α} {fo : List (Net.Out α)} {op : Net.Op α} {o : Net.Out α} {k : Nat}
    (hv : Net.InvL L g s gh fo) (h : Off s.pool k) (hn : ∀ j, op = .add j → j ≠ k) (hs : s.step g op = .ok (s', o)) : Off s'.pool k := by
  have key : ∀ {pop f}, s.onPool pop f = .ok (s', o) → pop ≠ Pool.Op.add k → (∀ p po, (f p po : S α).pool = p) → Off s'.pool k := by
    intro pop f hp hne hf
    obtain ⟨p, po, a, b, _⟩ := Net.onPool_ok hp
    rw [b, hf]
    exact off_step hv.pinv hv.ident h hne a
  have inn : ∀ {w j a}, s.inner g w j a op = .ok (s', o) → Off s'.pool k := by
    intro w j a hi
    rw [(Net.inner_ok hi).1]
    exact h
  have keep : (Outcome.ok (s, Net.Out.quiet) : Outcome (S α × Net.Out α)) = .ok (s', o) → Off s'.pool k := by
    intro e
    cases e
    exact h
  cases op with
  | add j => simp only [S.step] at hs; exact key hs (by simpa using hn j rfl) (fun _ _ => rfl)
  | pick w now =>
    simp only [S.step] at hs
    refine key hs (by simp) (fun p po => ?_)
    cases po <;> rfl
  | done w t =>
    simp only [S.step] at hs
    split at hs
    · exact key hs (by simp) (fun _ _ => rfl)
    · exact keep hs
  | post w =>
    simp only [S.step] at hs
    split at hs
    · exact key hs (by simp) (fun _ _ => rfl)
    · exact keep hs
  | begin w qs => simp only [S.step, Net.Op.by] at hs; split at hs <;> first | exact inn hs | exact keep hs
  | look w => simp only [S.step, Net.Op.by] at hs; split at hs <;> first | exact inn hs | exact keep hs
  | go w => simp only [S.step, Net.Op.by] at hs; split at hs <;> first | exact inn hs | exact keep hs
  | skip w => simp only [S.step, Net.Op.by] at hs; split at hs <;> first | exact inn hs | exact keep hs
  | slot w => simp only [S.step, Net.Op.by] at hs; split at hs <;> first | exact inn hs | exact keep hs
  | work w y => simp only [S.step, Net.Op.by] at hs; split at hs <;> first | exact inn hs | exact keep hs
  | commit w => simp only [S.step, Net.Op.by] at hs; split at hs <;> first | exact inn hs | exact keep hs
  | drop w => simp only [S.step, Net.Op.by] at hs; split at hs <;> first | exact inn hs | exact keep hs

/-- Whether a step names a filter that so far has nothing to do with anything. -/
def Names (k : Nat) : Rewire.Op α → Prop
  | .flow (.add j) => j = k
  | .connect w j _ _ _ => w = k ∨ j = k
  | .share _ j => j = k
  | _ => False

theorem off_net {x x' : D α} {gh : Ghost α} {fo : List (Net.Out α)} {outs : List (Rewire.Out α)} {op : Rewire.Op α} {o : Rewire.Out α} {k : Nat}
    (hv : DI x gh fo outs) (h : Off x.s.pool k) (hn : op ≠ .flow (.add k)) (hs : x.step op = .ok (x', o)) : Off x'.s.pool k := by
  cases op with
  | flow op =>
    simp only [D.step] at hs
    split at hs
    · cases hc : x.s.step x.g op with
      | ub => rw [hc] at hs; simp at hs
      | hang => rw [hc] at hs; simp at hs
      | ok y =>
        rw [hc] at hs
        simp at hs
        rw [← hs.1]
        exact off_flow hv.inv h (fun j e he => hn (by rw [e, he])) hc
    · simp at hs
  | connect w r q size d => simp only [D.step] at hs; cases hs; exact h
  | share q j => simp only [D.step] at hs; split at hs <;> cases hs; exact h
  | leave q j => simp only [D.step] at hs; split at hs <;> cases hs; exact h
  | cut q => simp only [D.step] at hs; split at hs <;> cases hs; exact h

theorem loose_net {x x' : D α} {op : Rewire.Op α} {o : Rewire.Out α} {k : Nat} (h : Loose x k) (hn : ¬ Names k op)
    (hs : x.step op = .ok (x', o)) : Loose x' k := by
  cases op with
  | flow op =>
    simp only [D.step] at hs
    split at hs
    · cases hc : x.s.step x.g op with
      | ub => rw [hc] at hs; simp at hs
      | hang => rw [hc] at hs; simp at hs
      | ok y =>
        rw [hc] at hs
        simp at hs
        rw [← hs.1]
        exact h
    · simp at hs
  | connect w r q size d =>
    simp only [D.step] at hs
    cases hs
    simp only [Names, not_or] at hn
    intro p hp
    by_cases e : p = q
    · subst e
      simp [Rewire.link, Pool.set, hn.1]
      exact fun e => hn.2 e.symm
    · simp only [Rewire.link]
      rw [Pool.set_ne _ _ e, Pool.set_ne _ _ e]
      have hp' : Pool.set x.live q true p = true := hp
      rw [Pool.set_ne _ _ e] at hp'
      exact h p hp'
  | share q j =>
    simp only [D.step] at hs
    split at hs <;> cases hs
    simp only [Names] at hn
    intro p hp
    refine ⟨(h p hp).1, fun hm => ?_⟩
    by_cases e : p = q
    · subst e
      simp only [Rewire.join, Pool.set, if_true, List.mem_append, List.mem_singleton] at hm
      rcases hm with hm | hm
      · exact (h p hp).2 hm
      · exact hn hm.symm
    · simp only [Rewire.join] at hm
      rw [Pool.set_ne _ _ e] at hm
      exact (h p hp).2 hm
  | leave q j =>
    simp only [D.step] at hs
    split at hs <;> cases hs
    intro p hp
    exact ⟨(h p hp).1, fun hm => (h p hp).2 (Rewire.unjoin_dst.1 hm).1⟩
  | cut q =>
    simp only [D.step] at hs
    split at hs <;> cases hs
    intro p hp
    have e : p ≠ q := by
      rintro rfl
      simp [Pool.set] at hp
    simp only [Rewire.unlink]
    rw [Pool.set_ne _ _ e]
    have hp' : Pool.set x.live q false p = true := hp
    rw [Pool.set_ne _ _ e] at hp'
    exact h p hp'

/-! ### Removing, making -/

theorem remove_inv {x : D α} {gh : Ghost α} {fo : List (Net.Out α)} {outs : List (Rewire.Out α)} (h : DI x gh fo outs) (k : Nat) :
    ∃ p o, x.s.pool.step (.remove (k : Int)) = .ok (p, o) ∧ DI { x with s := { x.s with pool := p } } gh fo outs := by
  have hp : ∃ p o, x.s.pool.step (.remove (k : Int)) = .ok (p, o) ∧
      (p = x.s.pool ∨ p = { x.s.pool with reg := Pool.set x.s.pool.reg (k : Int) none }) := by
    simp only [P.step]
    split
    · exact ⟨_, _, rfl, .inl rfl⟩
    · split
      · exact ⟨_, _, rfl, .inl rfl⟩
      · exact ⟨_, _, rfl, .inr rfl⟩
  obtain ⟨p, o, hs, e⟩ := hp
  refine ⟨p, o, hs, ?_⟩
  have hi := Pool.step_inv h.inv.pinv hs
  rcases e with rfl | rfl
  · exact h
  have hreg : ∀ j : Nat, Pool.set x.s.pool.reg (k : Int) none (j : Int) = some j → x.s.pool.reg (j : Int) = some j := by
    intro j hj
    unfold Pool.set at hj
    split at hj
    · simp at hj
    · exact hj
  have aw : ∀ j : Nat, Pool.set x.s.pool.reg (k : Int) none (j : Int) = some j → Pool.Awake x.s.pool j →
      Pool.Awake { x.s.pool with reg := Pool.set x.s.pool.reg (k : Int) none } j := by
    intro j hj ha
    refine ⟨?_, ha.uniq, ha.awake⟩
    show Pool.set x.s.pool.reg (k : Int) none (x.s.pool.ident j) = some j
    rw [h.inv.ident]
    exact hj
  exact { h with inv := { h.inv with
    pinv := hi
    wake := fun q j hq hl hr hne => (h.inv.wake q j hq hl (hreg j hr) hne).imp (aw j hr) id
    head := fun j hp hr => aw j hr (h.inv.head j hp (hreg j hr)) } }

theorem create_inv {x : D α} {gh : Ghost α} {fo : List (Net.Out α)} {outs : List (Rewire.Out α)} (h : DI x gh fo outs) (k t : Nat) (b : Bool)
    (ho : Off x.s.pool k) :
    DI { x with g := { x.g with periodic := Pool.set x.g.periodic k b }
                s := { x.s with pool := { x.s.pool with time := Pool.set x.s.pool.time k t } } } gh fo outs := by
  have aw : ∀ j : Nat, Pool.Awake x.s.pool j → Pool.Awake { x.s.pool with time := Pool.set x.s.pool.time k t } j :=
    fun j ha => ⟨ha.reg, ha.uniq, ha.awake⟩
  refine ⟨⟨h.ok.1, h.ok.2, h.ok.3, h.ok.4⟩, ?_, h.tie, h.made, h.live, h.fed⟩
  refine ⟨?_, h.inv.ident, h.inv.freed, h.inv.idle, ?_, h.inv.post, h.inv.free, h.inv.rd, h.inv.members, h.inv.hist, h.inv.same, ?_, ?_⟩
  · exact ⟨h.inv.pinv.set, h.inv.pinv.nodup, h.inv.pinv.reg, h.inv.pinv.run, h.inv.pinv.excl, h.inv.pinv.lock, h.inv.pinv.lock'⟩
  · intro w j hw
    have hg := h.inv.run w j hw
    exact ⟨hg.busy, hg.held, hg.only, hg.once, hg.asks, hg.org, hg.dst, hg.dOnce, hg.offers, hg.claim⟩
  · exact fun q j hq hl hr hne => (h.inv.wake q j hq hl hr hne).imp (aw j) id
  · intro j hp hr
    have hj : j ≠ k := by
      rintro rfl
      exact ho.1 hr
    have hp' : Pool.set x.g.periodic k b j = true := hp
    rw [Pool.set_ne _ _ hj] at hp'
    exact aw j (h.inv.head j hp' hr)

/-! ### The invariant -/

/-- What is not there is nowhere. -/
structure RI (r : R α) (gh : Ghost α) (fo : List (Net.Out α)) (outs : List (Out α)) : Prop where
  di : DI r.x gh fo (nets outs)
  off : ∀ k, r.gone k = true → Off r.x.s.pool k
  loose : ∀ k, r.gone k = true → Loose r.x k

theorem uses_there {r : R α} {gh : Ghost α} {fo : List (Net.Out α)} {outs : List (Out α)} (h : RI r gh fo outs) {op : Rewire.Op α}
    (ha : Allowed r (.net op)) : (uses r.x op).any r.gone = false := by
  have hq : ∀ k ∈ r.x.s.pool.q.queue, r.gone k ≠ true := fun k hk hg => (h.off k hg).2.1 hk
  have hw : ∀ w k, r.x.s.pool.ph w = .run k → r.gone k ≠ true := fun w k hk hg => ((h.off k hg).2.2 w).1 hk
  have hp : ∀ w k, r.x.s.pool.ph w = .post k → r.gone k ≠ true := fun w k hk hg => ((h.off k hg).2.2 w).2 hk
  have hr : ∀ id k, r.x.s.pool.reg id = some k → r.gone k ≠ true := fun id k hk hg => by
    have := h.di.inv.pinv.reg _ _ hk
    rw [h.di.inv.ident] at this
    rw [← this] at hk
    exact (h.off k hg).1 hk
  have hgen : ∀ nop : Net.Op α, ∀ k, k ∈ (match nop.by with
      | none => []
      | some w =>
        match r.x.s.pool.ph w, r.x.s.act w with
        | .idle, _ => []
        | .run k, _ => [k]
        | .post k, .drop _ en => k :: (r.x.s.pool.q.queue ++ en.filterMap r.x.s.pool.reg)
        | .post k, _ => [k]) → r.gone k ≠ true := by
    intro nop k hk
    split at hk
    · simp at hk
    · rename_i w _
      split at hk
      · simp at hk
      · rename_i j _ e
        simp at hk; rw [hk]; exact hw w _ e
      · rename_i j _ en e _
        simp only [List.mem_cons, List.mem_append, List.mem_filterMap] at hk
        rcases hk with e' | e' | ⟨id, _, e'⟩
        · rw [e']; exact hp w _ e
        · exact hq k e'
        · exact hr _ k e'
      · rename_i j _ e _
        simp at hk; rw [hk]; exact hp w _ e
  rw [List.any_eq_false]
  intro k hk
  cases op with
  | flow op =>
    cases op with
    | add j =>
      simp only [uses, List.mem_cons] at hk
      rcases hk with e | e
      · rw [e]
        have : r.gone j = false := ha
        simp [this]
      · exact hq k e
    | pick w now => exact hq k hk
    | begin w qs => exact hgen (.begin w qs) k hk
    | look w => exact hgen (.look w) k hk
    | go w => exact hgen (.go w) k hk
    | skip w => exact hgen (.skip w) k hk
    | slot w => exact hgen (.slot w) k hk
    | work w y => exact hgen (.work w y) k hk
    | commit w => exact hgen (.commit w) k hk
    | drop w => exact hgen (.drop w) k hk
    | done w t => exact hgen (.done w t) k hk
    | post w => exact hgen (.post w) k hk
  | connect w j q size d =>
    simp only [uses, List.mem_cons, List.not_mem_nil, or_false] at hk
    rcases hk with rfl | rfl
    · simp [ha.2.1]
    · simp [ha.2.2]
  | share q j =>
    simp only [uses, List.mem_singleton] at hk
    rw [hk]
    simp [ha.2]
  | leave q j =>
    simp only [uses, List.mem_singleton] at hk
    have h1 : r.x.live q = true ∧ j ∈ r.x.g.dst q := ⟨ha.1, ha.2.1⟩
    rw [hk]
    exact fun hg => (h.loose j hg q h1.1).2 h1.2
  | cut q =>
    simp only [uses, List.mem_cons] at hk
    have h1 : r.x.live q = true := ha.1
    rcases hk with e | e
    · rw [e]; exact fun hg => (h.loose _ hg q h1).1 rfl
    · exact fun hg => (h.loose _ hg q h1).2 e

theorem allowed_net {r : R α} {op : Rewire.Op α} (ha : Allowed r (.net op)) : Rewire.Allowed r.x op := by
  cases op with
  | flow op => trivial
  | connect w j q size d => exact ha.1
  | share q j => exact ha.1
  | leave q j => exact ha
  | cut q => exact ha

theorem names_there {r : R α} {op : Rewire.Op α} (ha : Allowed r (.net op)) {k : Nat} (hk : r.gone k = true) : ¬ Names k op := by
  cases op with
  | flow op =>
    cases op with
    | add j =>
      rintro rfl
      have : r.gone j = false := ha
      rw [this] at hk
      cases hk
    | _ => exact fun h => h
  | connect w j q size d =>
    rintro (rfl | rfl)
    · rw [ha.2.1] at hk; cases hk
    · rw [ha.2.2] at hk; cases hk
  | share q j =>
    rintro rfl
    rw [ha.2] at hk
    cases hk
  | leave q j => exact fun h => h
  | cut q => exact fun h => h

theorem step_inv {r : R α} {gh : Ghost α} {fo : List (Net.Out α)} {outs : List (Out α)} (h : RI r gh fo outs) (op : Op α) (ha : Allowed r op) :
    ∃ r' o gh' fo', r.step op = .ok (r', o) ∧ RI r' gh' fo' (outs ++ [o]) := by
  cases op with
  | net op =>
    obtain ⟨x', o, gh', fo', h1, h2⟩ := Rewire.step_inv h.di op (allowed_net ha)
    refine ⟨{ r with x := x' }, .net o, gh', fo', ?_, ?_, ?_, ?_⟩
    · simp only [R.step]
      rw [if_neg (by rw [uses_there h ha]; simp), h1]
      rfl
    · simpa [nets] using h2
    · intro k hk
      refine off_net h.di (h.off k hk) (fun e => ?_) h1
      exact names_there ha hk (by rw [e]; rfl)
    · exact fun k hk => loose_net (h.loose k hk) (names_there ha hk) h1
  | create k t b =>
    by_cases hg : r.gone k = true
    · have hd := create_inv h.di k t b (h.off k hg)
      refine ⟨_, _, gh, fo, by simp only [R.step]; rw [if_pos hg], ?_, ?_, ?_⟩
      · simpa [nets] using hd
      · intro j hj
        have hj' : r.gone j = true := by
          by_cases e : j = k
          · subst e; simp [Pool.set] at hj
          · have hj2 : Pool.set r.gone k false j = true := hj
            rwa [Pool.set_ne _ _ e] at hj2
        exact h.off j hj'
      · intro j hj
        have hj' : r.gone j = true := by
          by_cases e : j = k
          · subst e; simp [Pool.set] at hj
          · have hj2 : Pool.set r.gone k false j = true := hj
            rwa [Pool.set_ne _ _ e] at hj2
        exact h.loose j hj'
    · refine ⟨r, .refused, gh, fo, by simp only [R.step]; rw [if_neg hg], ?_, h.off, h.loose⟩
      simpa [nets] using h.di
  | remove k =>
    obtain ⟨p, o, h1, h2⟩ := remove_inv h.di k
    refine ⟨{ r with x := { r.x with s := { r.x.s with pool := p } } }, .removed k, gh, fo, ?_, ?_, ?_, ?_⟩
    · simp only [R.step]
      rw [h1]
      rfl
    · simpa [nets] using h2
    · exact fun j hj => off_step h.di.inv.pinv h.di.inv.ident (h.off j hj) (by simp) h1
    · exact h.loose
  | delete k =>
    obtain ⟨hg, ho, hl⟩ := ha
    refine ⟨{ r with gone := Pool.set r.gone k true }, .deleted k, gh, fo, ?_, ?_, ?_, ?_⟩
    · simp only [R.step]
      rw [if_neg (by simp [hg])]
    · simpa [nets] using h.di
    · intro j hj
      by_cases e : j = k
      · rw [e]; exact ho
      · have hj' : Pool.set r.gone k true j = true := hj
        rw [Pool.set_ne _ _ e] at hj'
        exact h.off j hj'
    · intro j hj
      by_cases e : j = k
      · rw [e]; exact hl
      · have hj' : Pool.set r.gone k true j = true := hj
        rw [Pool.set_ne _ _ e] at hj'
        exact h.loose j hj'

theorem init_inv (d : α) (time : Nat → Nat) : ∃ gh, RI (R.init d time) gh [] [] := by
  obtain ⟨gh, h⟩ := Rewire.init_inv (fun _ => false) d time
  refine ⟨gh, h, fun k _ => ?_, fun k _ => ?_⟩
  · refine ⟨?_, ?_, fun w => ⟨?_, ?_⟩⟩ <;> simp [R.init, D.init, S.init, P.init, Pool.TQ.init]
  · intro q hq
    simp [R.init, D.init] at hq

theorem run_inv (ops : List (Op α)) : ∀ {r : R α} {gh : Ghost α} {fo : List (Net.Out α)} {outs : List (Out α)}, RI r gh fo outs →
    AllowedRun r ops → ∃ r' os gh' fo', runOps R.step r ops = .ok (r', os) ∧ RI r' gh' fo' (outs ++ os) := by
  induction ops with
  | nil => intro r gh fo outs h _; exact ⟨r, [], gh, fo, rfl, by simpa using h⟩
  | cons op ops ih =>
    intro r gh fo outs h ⟨ha, hn⟩
    obtain ⟨x1, o, g1, f1, h1, h2⟩ := step_inv h op ha
    obtain ⟨x2, os, g2, f2, h3, h4⟩ := ih h2 (hn _ _ h1)
    refine ⟨x2, o :: os, g2, f2, by simp [runOps, h1, h3], by simpa using h4⟩

end Lms.Retire
