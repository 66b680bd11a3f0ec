import Verif.Rewire.Spec

/-! The invariant of a network whose connections change. -/

namespace Lms.Rewire

open Pool (set_ne Awake)
open Flow (set_eq)
open Net (Graph S Ghost InvL Good handled made ofQueue Notifies)
open SharedReader (Rd Rel)

variable {α : Type}

/-! ### What is remembered of the past -/

/-- Forget what the filters `K` have handled of queue `q` and, if `m`, what was committed to it. -/
def wipe (q : Nat) (K : Nat → Bool) (m : Bool) : List (Net.Out α) → List (Net.Out α)
  | [] => []
  | .ran k xs :: os => .ran k (if K k then xs.filter fun x => x.1 != q else xs) :: wipe q K m os
  | .skipped k xs :: os => .skipped k (if K k then xs.filter fun x => x.1 != q else xs) :: wipe q K m os
  | .put p y :: os => if p = q ∧ m = true then wipe q K m os else .put p y :: wipe q K m os
  | .quiet :: os => wipe q K m os

theorem ofQueue_wipe_self (q : Nat) (xs : List (Nat × α)) : ofQueue q (xs.filter fun x => x.1 != q) = [] := by
  unfold ofQueue
  rw [List.filter_filter]
  rw [List.filter_eq_nil_iff.2, List.map_nil]
  intro x _
  cases hx : x.1 == q <;> simp [bne, hx]

theorem ofQueue_wipe_other {p q : Nat} (h : p ≠ q) (xs : List (Nat × α)) :
    ofQueue p (xs.filter fun x => x.1 != q) = ofQueue p xs := by
  unfold ofQueue
  rw [List.filter_filter]
  congr 1
  apply List.filter_congr
  intro x _
  by_cases hx : x.1 = p
  · simp [hx, h]
  · simp [hx]

theorem handled_wipe (p j q : Nat) (K : Nat → Bool) (m : Bool) (os : List (Net.Out α)) :
    handled p j (wipe q K m os) = if p = q ∧ K j = true then [] else handled p j os := by
  induction os with
  | nil => simp [wipe, handled]
  | cons o os ih =>
    have key : ∀ k (xs : List (Nat × α)),
        (if k = j then ofQueue p (if K k then xs.filter fun x => x.1 != q else xs) ++ handled p j (wipe q K m os)
          else handled p j (wipe q K m os)) =
        if p = q ∧ K j = true then [] else if k = j then ofQueue p xs ++ handled p j os else handled p j os := by
      intro k xs
      rw [ih]
      by_cases hk : k = j
      · subst hk
        rw [if_pos rfl, if_pos rfl]
        by_cases hK : K k = true
        · rw [if_pos hK]
          by_cases hp : p = q
          · subst hp
            rw [if_pos ⟨rfl, hK⟩, if_pos ⟨rfl, hK⟩, ofQueue_wipe_self, List.nil_append]
          · rw [if_neg fun h => hp h.1, if_neg fun h => hp h.1, ofQueue_wipe_other hp]
        · rw [if_neg hK, if_neg fun h => hK h.2, if_neg fun h => hK h.2]
      · rw [if_neg hk, if_neg hk]
    cases o with
    | ran k xs => exact key k xs
    | skipped k xs => exact key k xs
    | put r y =>
      simp only [wipe, handled]
      split
      · exact ih
      · simpa only [handled] using ih
    | quiet => simpa only [wipe, handled] using ih

theorem made_wipe (p q : Nat) (K : Nat → Bool) (m : Bool) (os : List (Net.Out α)) :
    made p (wipe q K m os) = if p = q ∧ m = true then [] else made p os := by
  induction os with
  | nil => simp [wipe, made]
  | cons o os ih =>
    cases o with
    | ran k xs => simpa only [wipe, made] using ih
    | skipped k xs => simpa only [wipe, made] using ih
    | quiet => simpa only [wipe, made] using ih
    | put r y =>
      simp only [wipe]
      by_cases h : r = q ∧ m = true
      · rw [if_pos h, ih]
        obtain ⟨rfl, hm⟩ := h
        by_cases hp : p = r
        · rw [if_pos ⟨hp, hm⟩, if_pos ⟨hp, hm⟩]
        · rw [if_neg fun h => hp h.1, if_neg fun h => hp h.1]
          simp only [made]
          rw [if_neg fun e => hp e.symm]
      · rw [if_neg h]
        simp only [made]
        rw [ih]
        by_cases hp : p = q ∧ m = true
        · rw [if_pos hp, if_pos hp, if_neg]
          rintro rfl
          exact h hp
        · rw [if_neg hp, if_neg hp]

theorem ofQueue_map (p q : Nat) (l : List α) : ofQueue p (l.map fun x => (q, x)) = if p = q then l else [] := by
  unfold ofQueue
  induction l with
  | nil => simp
  | cons a l ih =>
    by_cases h : p = q
    · subst h; simpa using ih
    · have : (q == p) = false := by simp; exact fun e => h e.symm
      simp only [h, if_false] at ih ⊢
      simpa [this] using ih

/-! ### One queue changes -/

theorem origins_held {a : Net.Act α} {x : Nat × Nat} (h : x ∈ a.origins) : x.1 ∈ a.held := by
  cases a with
  | look t g => exact List.mem_map_of_mem h
  | slots t g d => exact List.mem_map_of_mem h
  | _ => simp [Net.Act.origins] at h

/-- Queue `q` changes and no filter at work takes notice of it. -/
theorem change {L L' : Nat → Nat → Prop} {g g' : Graph} {s : S α} {gh : Ghost α} {fo fo' : List (Net.Out α)} (q : Nat)
    (h : InvL L g s gh fo) {r' : Rd α} {t' : SharedReader.Spec α}
    (hper : g'.periodic = g.periodic)
    (hsrc : ∀ p, p ≠ q → g'.src p = g.src p)
    (hins : ∀ p k, p ≠ q → (p ∈ g'.ins k ↔ p ∈ g.ins k))
    (houts : ∀ p k, p ≠ q → (p ∈ g'.outs k ↔ p ∈ g.outs k))
    (hbusy : ∀ w k, s.pool.ph w = .run k → (q ∈ g.ins k → q ∈ g'.ins k) ∧ (q ∈ g.outs k → q ∈ g'.outs k))
    (hdst : ∀ p, p ≠ q → g'.dst p = g.dst p)
    (hrel : Rel r' t' ∧ 3 ≤ r'.ring.max) (hmem : t'.members = g'.dst q)
    (hold : ∀ k, (t'.active = true ∧ k ∈ t'.hold) ↔ gh.Holds q k)
    (hring : (∀ w k, s.pool.ph w = .run k → q ∉ g.ins k ∧ q ∉ g.outs k) ∨ (r'.ring = (s.rd q).ring ∧ t'.q = (gh.t q).q))
    (hh : ∀ p, p ≠ q → ∀ k, handled p k fo' = handled p k fo) (hm : ∀ p, p ≠ q → made p fo' = made p fo)
    (hL : ∀ p, p ≠ q → ∀ k, L' p k ↔ L p k)
    (hist : ∀ k ∈ g'.dst q, ∀ gh' : Ghost α, gh'.t q = t' → gh'.c = gh.c →
      (handled q k fo' ++ gh'.rest q k).Sublist (made q fo') ∧
      (made q fo').length = (handled q k fo' ++ gh'.rest q k).length + t'.q.lost)
    (same : ∀ gh' : Ghost α, gh'.t q = t' → gh'.c = gh.c → ∀ k ∈ g'.dst q, ∀ j ∈ g'.dst q,
      handled q k fo' ++ gh'.rest q k = handled q j fo' ++ gh'.rest q j)
    (wake : ∀ k, q ∈ g'.ins k → ¬ L' q k → s.pool.reg (k : Int) = some k → t'.q.q ≠ [] →
      Awake s.pool k ∨ Notifies g' s q k) :
    InvL L' g' { s with rd := Pool.set s.rd q r' } { gh with t := Pool.set gh.t q t' } fo' := by
  have hHolds : ∀ p k, Ghost.Holds ({ gh with t := Pool.set gh.t q t' } : Ghost α) p k ↔ gh.Holds p k := by
    intro p k
    by_cases e : p = q
    · subst e
      rw [← hold]
      simp only [Ghost.Holds, set_eq]
    · simp only [Ghost.Holds, set_ne _ _ e]
  have hrest : ∀ p k, p ≠ q → Ghost.rest ({ gh with t := Pool.set gh.t q t' } : Ghost α) p k = gh.rest p k := by
    intro p k e
    exact Net.rest_congr (by simp only [set_ne _ _ e]) rfl
  have hI : ∀ w k, s.pool.ph w = .run k → ∀ p, p ∈ g.ins k → p ∈ g'.ins k := by
    intro w k hw p hp
    by_cases e : p = q
    · subst e; exact (hbusy w k hw).1 hp
    · exact (hins p k e).2 hp
  have hO : ∀ w k, s.pool.ph w = .run k → ∀ p, p ∈ g.outs k → p ∈ g'.outs k := by
    intro w k hw p hp
    by_cases e : p = q
    · subst e; exact (hbusy w k hw).2 hp
    · exact (houts p k e).2 hp
  refine { pinv := h.pinv, ident := h.ident, freed := h.freed, idle := h.idle, run := ?_, post := h.post
           free := ?_, rd := ?_, members := ?_, hist := ?_, same := ?_, wake := ?_, head := ?_ }
  · intro w k hw
    have G := h.run w k hw
    refine { busy := G.busy, held := ?_, only := ?_, once := G.once, asks := fun p hp => hI w k hw p (G.asks p hp)
             org := ?_, dst := ?_, dOnce := G.dOnce, offers := fun p hp => hO w k hw p (G.offers p hp), claim := G.claim }
    · intro p hp
      obtain ⟨a, b⟩ := G.held p hp
      exact ⟨hI w k hw p a, (hHolds p k).2 b⟩
    · exact fun p hp => G.only p ((hHolds p k).1 hp)
    · intro x hx
      by_cases e : x.1 = q
      · rcases hring with hr | ⟨hr, _⟩
        · exact absurd (e ▸ (G.held x.1 (origins_held hx)).1) (hr w k hw).1
        · simp only [e, set_eq, hr]; rw [← e]; exact G.org x hx
      · simp only [set_ne _ _ e]; exact G.org x hx
    · intro x hx
      obtain ⟨a, b, c⟩ := G.dst x hx
      refine ⟨hO w k hw _ a, ?_⟩
      by_cases e : x.1 = q
      · rcases hring with hr | ⟨hr, ht⟩
        · exact absurd (e ▸ a) (hr w k hw).2
        · simp only [e, set_eq, hr, ht]; rw [← e]; exact ⟨b, c⟩
      · simp only [set_ne _ _ e]; exact ⟨b, c⟩
  · intro k hk p
    obtain ⟨a, b⟩ := h.free k hk p
    exact ⟨a, fun hh => b ((hHolds p k).1 hh)⟩
  · intro p
    by_cases e : p = q
    · subst e; simp only [set_eq]; exact hrel
    · simp only [set_ne _ _ e]; exact h.rd p
  · intro p
    by_cases e : p = q
    · subst e; simp only [set_eq]; exact hmem
    · simp only [set_ne _ _ e]; rw [hdst p e]; exact h.members p
  · intro p k hk
    by_cases e : p = q
    · subst e
      have := hist k hk { gh with t := Pool.set gh.t p t' } (set_eq _ _ _) rfl
      simpa only [set_eq] using this
    · rw [hrest p k e, hh p e, hm p e]
      simp only [set_ne _ _ e]
      exact h.hist p k (by rw [← hdst p e]; exact hk)
  · intro p k hk j hj
    by_cases e : p = q
    · subst e
      exact same { gh with t := Pool.set gh.t p t' } (set_eq _ _ _) rfl k hk j hj
    · rw [hrest p k e, hrest p j e, hh p e, hh p e]
      rw [hdst p e] at hk hj
      exact h.same p k hk j hj
  · intro p k hp hl hr hq
    by_cases e : p = q
    · subst e
      simp only [set_eq] at hq
      exact wake k hp hl hr hq
    · simp only [set_ne _ _ e] at hq
      refine (h.wake p k ((hins p k e).1 hp) (fun hh => hl ((hL p e k).2 hh)) hr hq).imp id fun hn => ?_
      obtain ⟨w, hw, h1⟩ := hn
      exact ⟨w, by rw [hsrc p e]; exact hw, h1⟩
  · intro k hk hr
    rw [hper] at hk
    exact h.head k hk hr

/-! ### The networks -/

theorem mem_set {f : Nat → List Nat} {a : Nat} {l : List Nat} {k x : Nat} :
    x ∈ Pool.set f a l k ↔ if k = a then x ∈ l else x ∈ f k := by
  by_cases e : k = a
  · subst e; rw [set_eq, if_pos rfl]
  · rw [set_ne _ _ e, if_neg e]

theorem link_ins {g : Graph} {w r q k p : Nat} : p ∈ (link g w r q).ins k ↔ p ∈ g.ins k ∨ (k = r ∧ p = q) := by
  show p ∈ Pool.set g.ins r _ k ↔ _
  rw [mem_set]
  by_cases e : k = r
  · subst e; simp
  · simp [e]

theorem link_outs {g : Graph} {w r q k p : Nat} : p ∈ (link g w r q).outs k ↔ p ∈ g.outs k ∨ (k = w ∧ p = q) := by
  show p ∈ Pool.set g.outs w _ k ↔ _
  rw [mem_set]
  by_cases e : k = w
  · subst e; simp
  · simp [e]

theorem link_ok {g : Graph} (ok : g.Ok) {w r q : Nat} (hi : ∀ k, q ∉ g.ins k) (ho : ∀ k, q ∉ g.outs k) : (link g w r q).Ok := by
  refine ⟨?_, ?_, ?_, ?_⟩
  · intro k p hp
    rcases link_ins.1 hp with hp' | ⟨rfl, rfl⟩
    · have e : p ≠ q := by rintro rfl; exact hi k hp'
      show k ∈ Pool.set g.dst q _ p
      rw [set_ne _ _ e]; exact ok.ins k p hp'
    · show k ∈ Pool.set g.dst p _ p
      rw [set_eq]; simp
  · intro k p hp
    rcases link_outs.1 hp with hp' | ⟨rfl, rfl⟩
    · have e : p ≠ q := by rintro rfl; exact ho k hp'
      show Pool.set g.src q _ p = k
      rw [set_ne _ _ e]; exact ok.outs k p hp'
    · exact set_eq _ _ _
  · intro k
    show (Pool.set g.outs w _ k).Nodup
    by_cases e : k = w
    · subst e
      rw [set_eq]
      refine List.nodup_append.2 ⟨ok.outsOnce k, by simp, ?_⟩
      intro a ha b hb
      rw [List.mem_singleton.1 hb]
      rintro rfl
      exact ho k ha
    · rw [set_ne _ _ e]; exact ok.outsOnce k
  · intro p
    show (Pool.set g.dst q _ p).Nodup
    by_cases e : p = q
    · subst e; rw [set_eq]; simp
    · rw [set_ne _ _ e]; exact ok.dstOnce p

theorem join_ins {g : Graph} {q k j p : Nat} : p ∈ (join g q k).ins j ↔ p ∈ g.ins j ∨ (j = k ∧ p = q) := by
  show p ∈ Pool.set g.ins k _ j ↔ _
  rw [mem_set]
  by_cases e : j = k
  · subst e; simp
  · simp [e]

theorem join_ok {g : Graph} (ok : g.Ok) {q k : Nat} (hk : k ∉ g.dst q) : (join g q k).Ok := by
  refine ⟨?_, ok.outs, ok.outsOnce, ?_⟩
  · intro j p hp
    show j ∈ Pool.set g.dst q _ p
    rcases join_ins.1 hp with hp' | ⟨rfl, rfl⟩
    · rw [mem_set]
      by_cases e : p = q
      · subst e; rw [if_pos rfl]; exact List.mem_append_left _ (ok.ins j p hp')
      · rw [if_neg e]; exact ok.ins j p hp'
    · rw [set_eq]; simp
  · intro p
    show (Pool.set g.dst q _ p).Nodup
    by_cases e : p = q
    · subst e
      rw [set_eq]
      refine List.nodup_append.2 ⟨ok.dstOnce p, by simp, ?_⟩
      intro a ha b hb
      rw [List.mem_singleton.1 hb]
      rintro rfl
      exact hk ha
    · rw [set_ne _ _ e]; exact ok.dstOnce p

theorem unjoin_ins {g : Graph} {q k j p : Nat} : p ∈ (unjoin g q k).ins j ↔ p ∈ g.ins j ∧ ¬ (j = k ∧ p = q) := by
  show p ∈ Pool.set g.ins k _ j ↔ _
  rw [mem_set]
  by_cases e : j = k
  · subst e; simp
  · simp [e]

theorem unjoin_dst {g : Graph} {q k j p : Nat} : j ∈ (unjoin g q k).dst p ↔ j ∈ g.dst p ∧ ¬ (j = k ∧ p = q) := by
  show j ∈ Pool.set g.dst q _ p ↔ _
  rw [mem_set]
  by_cases e : p = q
  · subst e; simp
  · simp [e]

theorem unjoin_ok {g : Graph} (ok : g.Ok) {q k : Nat} : (unjoin g q k).Ok := by
  refine ⟨?_, ok.outs, ok.outsOnce, ?_⟩
  · intro j p hp
    obtain ⟨a, b⟩ := unjoin_ins.1 hp
    exact unjoin_dst.2 ⟨ok.ins j p a, b⟩
  · intro p
    show (Pool.set g.dst q _ p).Nodup
    by_cases e : p = q
    · subst e
      rw [set_eq]
      exact List.Pairwise.filter _ (ok.dstOnce p)
    · rw [set_ne _ _ e]; exact ok.dstOnce p

theorem unlink_ins {g : Graph} {q k p : Nat} : p ∈ (unlink g q).ins k ↔ p ∈ g.ins k ∧ p ≠ q := by
  show p ∈ (g.ins k).filter _ ↔ _
  simp

theorem unlink_outs {g : Graph} {q k p : Nat} : p ∈ (unlink g q).outs k ↔ p ∈ g.outs k ∧ p ≠ q := by
  show p ∈ (g.outs k).filter _ ↔ _
  simp

theorem unlink_ok {g : Graph} (ok : g.Ok) {q : Nat} : (unlink g q).Ok := by
  refine ⟨?_, ?_, ?_, ?_⟩
  · intro k p hp
    obtain ⟨a, b⟩ := unlink_ins.1 hp
    show k ∈ Pool.set g.dst q _ p
    rw [set_ne _ _ b]; exact ok.ins k p a
  · intro k p hp
    exact ok.outs k p (unlink_outs.1 hp).1
  · intro k
    exact List.Pairwise.filter _ (ok.outsOnce k)
  · intro p
    show (Pool.set g.dst q _ p).Nodup
    by_cases e : p = q
    · subst e; rw [set_eq]; simp
    · rw [set_ne _ _ e]; exact ok.dstOnce p

/-! ### What one more thing seen does -/

theorem committed_snoc (q : Nat) (outs : List (Out α)) (o : Out α) :
    committed q (outs ++ [o]) = match o with
      | .linked p => if p = q then [] else committed q outs
      | .flow o => committed q outs ++ made q [o]
      | _ => committed q outs := by
  unfold committed
  rw [List.foldl_append]
  rfl

theorem seen_snoc (q k : Nat) (outs : List (Out α)) (o : Out α) :
    seen q k (outs ++ [o]) = match o with
      | .linked p => if p = q then [] else seen q k outs
      | .joined p j => if p = q ∧ j = k then [] else seen q k outs
      | .flow o => seen q k outs ++ handled q k [o]
      | _ => seen q k outs := by
  unfold seen
  rw [List.foldl_append]
  rfl

theorem newcomer_snoc (q k : Nat) (outs : List (Out α)) (o : Out α) :
    newcomer q k (outs ++ [o]) = match o with
      | .linked p => if p = q then false else newcomer q k outs
      | .joined p j => if p = q ∧ j = k then true else newcomer q k outs
      | _ => newcomer q k outs := by
  unfold newcomer
  rw [List.foldl_append]
  rfl

theorem unwoken_snoc (q k : Nat) (outs : List (Out α)) (o : Out α) :
    unwoken q k (outs ++ [o]) = match o with
      | .linked p => if p = q then false else unwoken q k outs
      | .joined p j => if p = q ∧ j = k then true else unwoken q k outs
      | .flow (.put p _) => if p = q then false else unwoken q k outs
      | _ => unwoken q k outs := by
  unfold unwoken
  rw [List.foldl_append]
  rfl

/-- The invariant; `fo` is a past of an unchanging network that agrees with what has been seen. -/
structure DI (x : D α) (gh : Ghost α) (fo : List (Net.Out α)) (outs : List (Out α)) : Prop where
  ok : x.g.Ok
  inv : InvL (fun q k => unwoken q k outs = true) x.g x.s gh fo
  tie : ∀ q k, k ∈ x.g.dst q → ∃ before, handled q k fo = before ++ seen q k outs ∧ (newcomer q k outs = false → before = [])
  made : ∀ q, x.live q = true → Net.made q fo = committed q outs
  live : ∀ q k, q ∈ x.g.ins k ∨ q ∈ x.g.outs k ∨ k ∈ x.g.dst q → x.live q = true
  fed : ∀ q, x.live q = true → x.g.dst q ≠ []

end Lms.Rewire
