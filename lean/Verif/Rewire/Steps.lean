import Verif.Rewire.Lemmas

/-! Every allowed step keeps the invariant. -/

namespace Lms.Rewire

open Pool (set_ne Awake)
open Flow (set_eq)
open Net (Graph S Ghost InvL Good handled made ofQueue Notifies Act)
open SharedReader (Rd Rel)

variable {α : Type} {x : D α} {gh : Ghost α} {fo : List (Net.Out α)} {outs : List (Out α)}

theorem touches_live (h : DI x gh fo outs) (op : Net.Op α) : ∀ q ∈ touches x.g x.s op, x.live q = true := by
  intro q hq
  unfold touches at hq
  split at hq
  · simp at hq
  rename_i w _
  have li : ∀ k, q ∈ x.g.ins k → x.live q = true := fun k hk => h.live q k (.inl hk)
  have lo : ∀ k, q ∈ x.g.outs k → x.live q = true := fun k hk => h.live q k (.inr (.inl hk))
  split at hq
  · exact li _ hq
  · rename_i k _ _ _ _ hph ha _
    have G := h.inv.run w k hph
    rw [ha] at G
    exact li k (G.asks q (by rw [List.mem_singleton.1 hq]; simp [Act.asks]))
  · rename_i k _ _ hph ha _
    have G := h.inv.run w k hph
    rw [ha] at G
    exact li k (G.held q hq).1
  · rename_i k _ _ _ _ _ hph ha _
    have G := h.inv.run w k hph
    rw [ha] at G
    exact lo k (G.offers q (by rw [List.mem_singleton.1 hq]; simp [Act.offers]))
  · rename_i k _ _ _ _ hph ha _
    have G := h.inv.run w k hph
    rw [ha] at G
    rcases List.mem_append.1 hq with hq | hq
    · exact li k (G.held q hq).1
    · obtain ⟨z, hz, rfl⟩ := List.mem_map.1 hq
      exact lo k (G.dst z hz).1
  · rename_i k _ z _ _ _ hph ha _
    have G := h.inv.run w k hph
    rw [ha] at G
    rw [List.mem_singleton.1 hq] at lo ⊢
    exact lo k (G.dst (z.1, z.2.1) (by simp [Act.dests])).1
  · rename_i k _ _ _ _ hph ha _
    have G := h.inv.run w k hph
    rw [ha] at G
    exact li k (G.held q (by rw [List.mem_singleton.1 hq]; simp [Act.held])).1
  · exact li _ hq
  · simp at hq

theorem inner_put {g : Graph} (ok : g.Ok) {s s' : S α} {w k : Nat} {a : Act α} {op : Net.Op α} {q : Nat} {y : α}
    (hG : Good g s.rd gh k a) (hph : s.pool.ph w = .run k) (hs : s.inner g w k a op = .ok (s', .put q y)) :
    ∀ j ∈ g.dst q, Notifies g s' q j := by
  unfold S.inner at hs
  split at hs
  · simp at hs
  · rename_i q' todo got
    cases hr : (s.rd q').getFrame k with
    | ub => rw [hr] at hs; simp at hs
    | hang => rw [hr] at hs; simp at hs
    | ok r =>
      obtain ⟨r, d⟩ := r
      rw [hr] at hs
      simp only [Outcome.bind_ok] at hs
      split at hs <;> simp at hs
  · simp at hs
  · simp at hs
  · rename_i q' todo got ds
    cases hr : (s.ring q').writerSlot true with
    | ub => rw [hr] at hs; simp at hs
    | hang => rw [hr] at hs; simp at hs
    | ok r =>
      obtain ⟨r, d⟩ := r
      rw [hr] at hs
      rcases d with _ | d <;> simp at hs
  · simp at hs
  · rename_i q' i v todo got en
    cases hr : ((s.ring q').write i v).addFrame with
    | ub => rw [hr] at hs; simp at hs
    | hang => rw [hr] at hs; simp at hs
    | ok r =>
      rw [hr] at hs
      simp at hs
      obtain ⟨rfl, rfl, rfl⟩ := hs
      intro j hj
      have hsrc := ok.outs _ _ (hG.dst (q', i) (by simp [Act.dests])).1
      refine ⟨w, Or.inl (by rw [hsrc]; exact hph), ?_⟩
      simp only [S.at, set_eq, Act.notes]
      exact List.mem_append_left _ (List.mem_map_of_mem (f := fun (k : Nat) => (k : Int)) hj)
  · simp at hs
  · rename_i q' todo en
    cases hr : (s.rd q').removeFrame k with
    | ub => rw [hr] at hs; simp at hs
    | hang => rw [hr] at hs; simp at hs
    | ok r => rw [hr] at hs; simp at hs
  · simp at hs

/-- Who commits a frame is about to notify all that read the queue. -/
theorem put_notifies {L : Nat → Nat → Prop} {g : Graph} (ok : g.Ok) {s s' : S α} (h : InvL L g s gh fo) {op : Net.Op α} {q : Nat} {y : α}
    (hs : s.step g op = .ok (s', .put q y)) : ∀ k ∈ g.dst q, Notifies g s' q k := by
  cases op with
  | add k =>
    simp only [S.step] at hs
    obtain ⟨_, _, _, _, h1⟩ := Net.onPool_ok hs
    cases h1
  | pick w n =>
    simp only [S.step] at hs
    obtain ⟨_, _, _, _, h1⟩ := Net.onPool_ok hs
    cases h1
  | done w t =>
    simp only [S.step] at hs
    split at hs
    · obtain ⟨_, _, _, _, h1⟩ := Net.onPool_ok hs
      cases h1
    · simp at hs
  | post w =>
    simp only [S.step] at hs
    split at hs
    · obtain ⟨_, _, _, _, h1⟩ := Net.onPool_ok hs
      cases h1
    · simp at hs
  | begin w | look w | go w | skip w | slot w | work w | commit w | drop w =>
    simp only [S.step, Net.Op.by] at hs
    split at hs
    · rename_i k hph
      exact inner_put ok (h.run w k hph) hph hs
    · simp at hs

theorem flow_inv (h : DI x gh fo outs) (op : Net.Op α) :
    ∃ x' o gh' fo', x.step (.flow op) = .ok (x', o) ∧ DI x' gh' fo' (outs ++ [o]) := by
  obtain ⟨s', o, gh', h1, h2⟩ := Net.step_inv h.ok h.inv op
  refine ⟨{ x with s := s' }, .flow o, gh', fo ++ [o], ?_, ?_⟩
  · simp only [D.step]
    rw [if_pos (List.all_eq_true.2 (touches_live h op)), h1]
    rfl
  refine ⟨h.ok, ?_, ?_, ?_, h.live, h.fed⟩
  · refine { h2 with wake := ?_ }
    intro q k hq hl hr hne
    by_cases hu : unwoken q k outs = true
    · rw [unwoken_snoc] at hl
      rcases o with _ | ⟨j, xs⟩ | ⟨j, xs⟩ | ⟨p, y⟩
      · exact absurd hu hl
      · exact absurd hu hl
      · exact absurd hu hl
      · by_cases e : p = q
        · subst e
          exact .inr (put_notifies h.ok h.inv h1 k (h.ok.ins _ _ hq))
        · simp only [e, if_false] at hl
          exact absurd hu hl
    · exact h2.wake q k hq hu hr hne
  · intro q k hk
    obtain ⟨b, h3, h4⟩ := h.tie q k hk
    refine ⟨b, ?_, ?_⟩
    · rw [Net.handled_append, h3, seen_snoc, List.append_assoc]
    · rw [newcomer_snoc]; exact h4
  · intro q hq
    rw [Net.made_append, h.made q hq, committed_snoc]

/-- No queue that is not there is held. -/
theorem not_holds (h : DI x gh fo outs) {q : Nat} (hi : ∀ w k, x.s.pool.ph w = .run k → q ∉ x.g.ins k) (k : Nat) : ¬ gh.Holds q k := by
  intro hh
  by_cases hr : ∃ w, x.s.pool.ph w = .run k
  · obtain ⟨w, hw⟩ := hr
    have G := h.inv.run w k hw
    exact hi w k hw (G.held q (G.only q hh)).1
  · exact (h.inv.free k (fun w hw => hr ⟨w, hw⟩) q).2 hh

theorem connect_inv (h : DI x gh fo outs) {w r q size : Nat} {d : Nat → α} (ha : Allowed x (.connect w r q size d)) :
    ∃ x' o gh' fo', x.step (.connect w r q size d) = .ok (x', o) ∧ DI x' gh' fo' (outs ++ [o]) := by
  obtain ⟨_, hl, hsz, hw, hr⟩ := ha
  have ni : ∀ k, q ∉ x.g.ins k := fun k hk => by have := h.live q k (.inl hk); rw [hl] at this; cases this
  have no : ∀ k, q ∉ x.g.outs k := fun k hk => by have := h.live q k (.inr (.inl hk)); rw [hl] at this; cases this
  have hdst : ∀ p, p ≠ q → (link x.g w r q).dst p = x.g.dst p := fun p e => set_ne _ _ e
  have hdq : (link x.g w r q).dst q = [r] := set_eq _ _ _
  refine ⟨_, _, { gh with t := Pool.set gh.t q (SharedReader.Spec.init (FrameQueue.Spec.init size d) r) },
    wipe q (fun _ => true) true fo, rfl, ⟨link_ok h.ok ni no, ?_, ?_, ?_, ?_, ?_⟩⟩
  · have hq0 : ∀ k, handled q k (wipe q (fun _ => true) true fo) = [] := fun k => by rw [handled_wipe, if_pos ⟨rfl, rfl⟩]
    have hrest : ∀ (gh' : Ghost α) k, gh'.t q = SharedReader.Spec.init (FrameQueue.Spec.init size d) r → gh'.rest q k = [] := by
      intro gh' k e
      rw [Net.rest_not, e]
      · rfl
      · intro hp
        have := hp.1
        rw [e] at this
        simp [SharedReader.Spec.init] at this
    refine change q h.inv rfl (fun p e => set_ne _ _ e) ?_ ?_ ?_ hdst ⟨SharedReader.create_rel size (by omega) d r, ?_⟩ ?_ ?_
      (.inl fun w k _ => ⟨ni k, no k⟩) ?_ ?_ ?_ ?_ ?_ ?_
    · intro p k e; rw [link_ins]; simp [e]
    · intro p k e; rw [link_outs]; simp [e]
    · exact fun w k _ => ⟨fun hk => absurd hk (ni k), fun hk => absurd hk (no k)⟩
    · show 3 ≤ (if size > 250 then 250 else size)
      by_cases h : size > 250
      · rw [if_pos h]; omega
      · rw [if_neg h]; exact hsz
    · rw [hdq]; rfl
    · intro k
      refine ⟨fun hh => ?_, fun hh => absurd hh (not_holds h (fun w k _ => ni k) k)⟩
      have := hh.1
      simp [SharedReader.Spec.init] at this
    · intro p e k
      rw [handled_wipe, if_neg fun hh => e hh.1]
    · intro p e
      rw [made_wipe, if_neg fun hh => e hh.1]
    · intro p e k
      rw [unwoken_snoc]
      simp only
      rw [if_neg fun hh => e hh.symm]
    · intro k _ gh' e _
      rw [hq0, hrest gh' k e, made_wipe, if_pos ⟨rfl, rfl⟩]
      simp [SharedReader.Spec.init, FrameQueue.Spec.init]
    · intro gh' e _ k _ j _
      rw [hq0, hq0, hrest gh' k e, hrest gh' j e]
    · intro k _ _ _ hne
      simp [SharedReader.Spec.init, FrameQueue.Spec.init] at hne
  · intro p k hk
    by_cases e : p = q
    · subst e
      refine ⟨[], ?_, fun _ => rfl⟩
      rw [handled_wipe, if_pos ⟨rfl, rfl⟩, seen_snoc]
      simp
    · obtain ⟨b, h1, h2⟩ := h.tie p k (by rw [← hdst p e]; exact hk)
      have e' : ¬ q = p := fun hh => e hh.symm
      refine ⟨b, ?_, ?_⟩
      · rw [handled_wipe, if_neg fun hh => e hh.1, seen_snoc]
        simp only [e', if_false]; exact h1
      · rw [newcomer_snoc]
        simp only [e', if_false]; exact h2
  · intro p hp
    rw [made_wipe, committed_snoc]
    by_cases e : p = q
    · subst e; simp
    · have e' : ¬ q = p := fun hh => e hh.symm
      rw [if_neg fun hh => e hh.1]
      simp only [e', if_false]
      refine h.made p ?_
      simpa only [set_ne _ _ e] using hp
  · intro p k hp
    show Pool.set x.live q true p = true
    by_cases e : p = q
    · subst e; exact set_eq _ _ _
    · rw [set_ne _ _ e]
      refine h.live p k ?_
      rcases hp with hp | hp | hp
      · left; simpa [e] using link_ins.1 hp
      · right; left; simpa [e] using link_outs.1 hp
      · right; right; rw [← hdst p e]; exact hp
  · intro p hp
    by_cases e : p = q
    · subst e; rw [hdq]; simp
    · rw [hdst p e]
      refine h.fed p ?_
      simpa only [set_ne _ _ e] using hp

theorem cut_inv (h : DI x gh fo outs) {q : Nat} (ha : Allowed x (.cut q)) :
    ∃ x' o gh' fo', x.step (.cut q) = .ok (x', o) ∧ DI x' gh' fo' (outs ++ [o]) := by
  obtain ⟨hl, hw, hr⟩ := ha
  have ni : ∀ w k, x.s.pool.ph w = .run k → q ∉ x.g.ins k := fun w k hp hk => hr k (h.ok.ins _ _ hk) w hp
  have no : ∀ w k, x.s.pool.ph w = .run k → q ∉ x.g.outs k := fun w k hp hk => hw w (by rw [h.ok.outs _ _ hk]; exact hp)
  have hdst : ∀ p, p ≠ q → (unlink x.g q).dst p = x.g.dst p := fun p e => set_ne _ _ e
  have hdq : (unlink x.g q).dst q = [] := set_eq _ _ _
  have hR := (h.inv.rd q).1
  have hstep : x.step (.cut q) = .ok (_, .cut q) := if_pos hl
  refine ⟨_, _, { gh with t := Pool.set gh.t q { gh.t q with members := [], active := false, todo := [], hold := [] } }, fo, hstep,
    ⟨unlink_ok h.ok, ?_, ?_, ?_, ?_, ?_⟩⟩
  · refine change q h.inv rfl (fun p e => rfl) ?_ ?_ ?_ hdst ⟨?_, (h.inv.rd q).2⟩ ?_ ?_
      (.inl fun w k hp => ⟨ni w k hp, no w k hp⟩) (fun _ _ _ => rfl) (fun _ _ => rfl) ?_ ?_ ?_ ?_
    · intro p k e; rw [unlink_ins]; simp [e]
    · intro p k e; rw [unlink_outs]; simp [e]
    · exact fun w k hp => ⟨fun hk => absurd hk (ni w k hp), fun hk => absurd hk (no w k hp)⟩
    · exact ⟨hR.ring, hR.conn, rfl, List.nodup_nil, rfl, fun _ => rfl, fun hh => (by cases hh), fun hh => (by cases hh), fun hh => (by cases hh)⟩
    · rw [hdq]
    · exact fun k => ⟨fun hh => (by cases hh.1), fun hh => absurd hh (not_holds h ni k)⟩
    · intro p e k; rw [unwoken_snoc]
    · intro k hk; rw [hdq] at hk; cases hk
    · intro _ _ _ k hk; rw [hdq] at hk; cases hk
    · intro k hk; exact absurd rfl (unlink_ins.1 hk).2
  · intro p k hk
    have e : p ≠ q := by rintro rfl; rw [hdq] at hk; cases hk
    rw [seen_snoc, newcomer_snoc]
    exact h.tie p k (by rw [← hdst p e]; exact hk)
  · intro p hp
    have e : p ≠ q := by
      rintro rfl
      have : Pool.set x.live p false p = true := hp
      rw [set_eq] at this; cases this
    rw [committed_snoc]
    refine h.made p ?_
    simpa only [set_ne _ _ e] using hp
  · intro p k hp
    have e : p ≠ q := by
      rintro rfl
      rcases hp with hp | hp | hp
      · exact (unlink_ins.1 hp).2 rfl
      · exact (unlink_outs.1 hp).2 rfl
      · rw [hdq] at hp; cases hp
    show Pool.set x.live q false p = true
    rw [set_ne _ _ e]
    refine h.live p k ?_
    rcases hp with hp | hp | hp
    · exact .inl (unlink_ins.1 hp).1
    · exact .inr (.inl (unlink_outs.1 hp).1)
    · exact .inr (.inr (by rw [← hdst p e]; exact hp))
  · intro p hp
    have e : p ≠ q := by
      rintro rfl
      have : Pool.set x.live p false p = true := hp
      rw [set_eq] at this; cases this
    rw [hdst p e]
    refine h.fed p ?_
    simpa only [set_ne _ _ e] using hp

/-- Who begins to share a reader is as one that has passed over all frames gone by. -/
theorem catch_up (h : DI x gh fo outs) {q k : Nat} (hk : k ∉ x.g.dst q) (j : Nat)
    {gh' : Ghost α} (ht : gh'.t q = { gh.t q with members := (gh.t q).members ++ [k] }) :
    ∃ before, before ++ gh'.rest q k = handled q j fo ++ gh.rest q j := by
  have hR := (h.inv.rd q).1
  by_cases ha : (gh.t q).active = true
  · obtain ⟨s1, s2, _⟩ := hR.sub ha
    rw [h.inv.members q] at s1 s2
    have hp : gh'.Past q k := by
      refine ⟨by rw [ht]; exact ha, ?_, ?_⟩
      · rw [ht]; exact fun hh => hk (s1 k hh)
      · rw [ht]; exact fun hh => absurd (s2 k hh) hk
    rw [Net.rest_past hp, ht]
    show ∃ before, before ++ (gh.t q).q.q.tail = _
    by_cases hpj : gh.Past q j
    · rw [Net.rest_past hpj]; exact ⟨_, rfl⟩
    · rw [Net.rest_not hpj]
      rcases hq : (gh.t q).q.q with _ | ⟨y, l⟩
      · exact absurd hq (hR.held ha).2
      · exact ⟨handled q j fo ++ [y], by simp⟩
  · have h1 : ¬ gh'.Past q k := fun hp => ha (by have := hp.1; rw [ht] at this; exact this)
    have h2 : ¬ gh.Past q j := fun hp => ha hp.1
    rw [Net.rest_not h1, Net.rest_not h2, ht]
    exact ⟨_, rfl⟩

theorem share_inv (h : DI x gh fo outs) {q k : Nat} (ha : Allowed x (.share q k)) :
    ∃ x' o gh' fo', x.step (.share q k) = .ok (x', o) ∧ DI x' gh' fo' (outs ++ [o]) := by
  obtain ⟨hl, hk, hidle⟩ := ha
  have hdst : ∀ p, p ≠ q → (join x.g q k).dst p = x.g.dst p := fun p e => set_ne _ _ e
  have hdq : (join x.g q k).dst q = x.g.dst q ++ [k] := set_eq _ _ _
  have hR := (h.inv.rd q).1
  have hkm : k ∉ (gh.t q).members := by rw [h.inv.members]; exact hk
  have hR' : Rel ((x.s.rd q).addReader k).1 { gh.t q with members := (gh.t q).members ++ [k] } := by
    obtain ⟨r', h1, h2⟩ := SharedReader.step_rel (x.s.rd q) (gh.t q) (.join k) trivial hR
    simp only [Rd.step, SharedReader.Spec.step, hkm, if_false] at h1 h2
    injection h1 with h1
    injection h1 with h1 _
    rw [h1]; exact h2
  have hadd : ((x.s.rd q).addReader k).1.ring = (x.s.rd q).ring := by
    unfold Rd.addReader
    split <;> rfl
  obtain ⟨j0, hj0⟩ := List.exists_mem_of_ne_nil _ (h.fed q hl)
  obtain ⟨before, hb⟩ := catch_up h hk j0
    (gh' := { gh with t := Pool.set gh.t q { gh.t q with members := (gh.t q).members ++ [k] } }) (set_eq _ _ _)
  have hstep : x.step (.share q k) = .ok (_, .joined q k) := if_pos hl
  have kj : ∀ p j, ¬ (p = q ∧ j = k) → handled p j (wipe q (fun j => decide (j = k)) false fo ++ [.skipped k (before.map fun y => (q, y))]) = handled p j fo := by
    intro p j hne
    rw [Net.handled_append, handled_wipe, if_neg (by simpa using hne)]
    simp only [handled]
    split
    · rename_i e
      rw [ofQueue_map, if_neg fun hp => hne ⟨hp, e.symm⟩]
      simp
    · simp
  have kk : handled q k (wipe q (fun j => decide (j = k)) false fo ++ [.skipped k (before.map fun y => (q, y))]) = before := by
    rw [Net.handled_append, handled_wipe, if_pos ⟨rfl, by simp⟩]
    simp only [handled, if_true]
    rw [ofQueue_map, if_pos rfl]
    simp
  have mm : ∀ p, made p (wipe q (fun j => decide (j = k)) false fo ++ [.skipped k (before.map fun y => (q, y))]) = made p fo := by
    intro p
    rw [Net.made_append, made_wipe, if_neg (by simp)]
    simp [made]
  have hpast : ∀ (gh' : Ghost α), gh'.t q = { gh.t q with members := (gh.t q).members ++ [k] } → gh'.c = gh.c → ∀ j, gh'.rest q j = gh.rest q j := by
    intro gh' e1 e2 j
    have : gh'.Past q j ↔ gh.Past q j := by
      unfold Ghost.Past
      rw [e1, e2]
    unfold Ghost.rest
    simp only [this, e1]
  have hall : ∀ (gh' : Ghost α), gh'.t q = { gh.t q with members := (gh.t q).members ++ [k] } → gh'.c = gh.c → ∀ j ∈ x.g.dst q ++ [k],
      handled q j (wipe q (fun j => decide (j = k)) false fo ++ [.skipped k (before.map fun y => (q, y))]) ++ gh'.rest q j =
        handled q j0 fo ++ gh.rest q j0 := by
    intro gh' e1 e2 j hj
    by_cases e : j = k
    · subst e
      rw [kk, ← hb, hpast gh' e1 e2]
      rw [hpast { gh with t := Pool.set gh.t q { gh.t q with members := (gh.t q).members ++ [j] } } (set_eq _ _ _) rfl]
    · have hj' : j ∈ x.g.dst q := by simpa [e] using hj
      rw [kj q j fun hh => e hh.2, hpast gh' e1 e2]
      exact h.inv.same q j hj' j0 hj0
  refine ⟨_, _, { gh with t := Pool.set gh.t q { gh.t q with members := (gh.t q).members ++ [k] } },
    wipe q (fun j => decide (j = k)) false fo ++ [.skipped k (before.map fun y => (q, y))], hstep,
    ⟨join_ok h.ok hk, ?_, ?_, ?_, ?_, ?_⟩⟩
  · refine change q h.inv rfl (fun p e => rfl) ?_ (fun _ _ _ => Iff.rfl) ?_ hdst ⟨hR', by rw [hadd]; exact (h.inv.rd q).2⟩ ?_ ?_
      (.inr ⟨hadd, rfl⟩) (fun p e j => kj p j fun hh => e hh.1) (fun p _ => mm p) ?_ ?_ ?_ ?_
    · intro p k e; rw [join_ins]; simp [e]
    · exact fun w k _ => ⟨fun hk => join_ins.2 (.inl hk), id⟩
    · rw [hdq, ← h.inv.members]
    · exact fun j => Iff.rfl
    · intro p e j; rw [unwoken_snoc]; simp only; rw [if_neg fun hh => e hh.1.symm]
    · intro j hj gh' e1 e2
      rw [hdq] at hj
      rw [hall gh' e1 e2 j hj, mm]
      exact h.inv.hist q j0 hj0
    · intro gh' e1 e2 i hi j hj
      rw [hdq] at hi hj
      rw [hall gh' e1 e2 i hi, hall gh' e1 e2 j hj]
    · intro j hj hu hr hne
      have e : j ≠ k := by
        rintro rfl
        rw [unwoken_snoc] at hu
        simp at hu
      have hj' : q ∈ x.g.ins j := by simpa [e] using join_ins.1 hj
      refine h.inv.wake q j hj' ?_ hr hne
      rw [unwoken_snoc] at hu
      simp only at hu
      rwa [if_neg fun hh => e hh.2.symm] at hu
  · intro p j hj
    by_cases e : p = q ∧ j = k
    · obtain ⟨rfl, rfl⟩ := e
      refine ⟨before, ?_, ?_⟩
      · rw [kk, seen_snoc]; simp
      · rw [newcomer_snoc]; simp
    · have e' : ¬ (q = p ∧ k = j) := fun hh => e ⟨hh.1.symm, hh.2.symm⟩
      rw [kj p j e, seen_snoc, newcomer_snoc]
      simp only [e', if_false]
      refine h.tie p j ?_
      by_cases e2 : p = q
      · subst e2
        have hjk : j ≠ k := fun hh => e ⟨rfl, hh⟩
        rw [hdq] at hj
        simpa [hjk] using hj
      · rw [← hdst p e2]; exact hj
  · intro p hp
    rw [mm, committed_snoc]
    exact h.made p hp
  · intro p j hp
    by_cases e : p = q
    · subst e; exact hl
    · refine h.live p j ?_
      rcases hp with hp | hp | hp
      · left; simpa [e] using join_ins.1 hp
      · exact .inr (.inl hp)
      · right; right; rw [← hdst p e]; exact hp
  · intro p hp
    by_cases e : p = q
    · subst e; rw [hdq]; simp
    · rw [hdst p e]; exact h.fed p hp

theorem leave_inv (h : DI x gh fo outs) {q k : Nat} (ha : Allowed x (.leave q k)) :
    ∃ x' o gh' fo', x.step (.leave q k) = .ok (x', o) ∧ DI x' gh' fo' (outs ++ [o]) := by
  obtain ⟨hl, hk, ⟨j0, hj0, hjk⟩, hidle, hlast⟩ := ha
  have hdst : ∀ p, p ≠ q → (unjoin x.g q k).dst p = x.g.dst p := fun p e => set_ne _ _ e
  have hdq : (unjoin x.g q k).dst q = (x.g.dst q).filter (· ≠ k) := set_eq _ _ _
  have hR := (h.inv.rd q).1
  have hkm : k ∈ (gh.t q).members := by rw [h.inv.members]; exact hk
  have hsafe : SharedReader.Safe (gh.t q) (.leave k) := by
    refine ⟨fun _ => ⟨j0, by rw [h.inv.members]; exact hj0, hjk⟩, fun hact _ => ?_⟩
    obtain ⟨e, he, hek, hb⟩ := hlast (by rw [hR.ready, hact]; rfl)
    refine ⟨e.1, hek, ?_⟩
    obtain ⟨f1, f2⟩ := hR.flags hact e he
    rw [Bool.or_eq_true] at hb
    rcases hb with hb | hb
    · exact .inl (f1.1 hb)
    · exact f2.1 hb
  have hR' : Rel ((x.s.rd q).disconnect k).1 { gh.t q with members := (gh.t q).members.filter (· ≠ k), todo := (gh.t q).todo.filter (· ≠ k), hold := (gh.t q).hold.filter (· ≠ k) } := by
    obtain ⟨r', h1, h2⟩ := SharedReader.step_rel (x.s.rd q) (gh.t q) (.leave k) hsafe hR
    simp only [Rd.step, SharedReader.Spec.step, hkm, if_true] at h1 h2
    injection h1 with h1
    injection h1 with h1 _
    rw [h1]; exact h2
  have hring : ((x.s.rd q).disconnect k).1.ring = (x.s.rd q).ring := by
    unfold Rd.disconnect
    split
    · rfl
    · simp only; split <;> rfl
  have hnh : ¬ gh.Holds q k := (h.inv.free k hidle q).2
  have hpast : ∀ (gh' : Ghost α), gh'.t q = { gh.t q with members := (gh.t q).members.filter (· ≠ k), todo := (gh.t q).todo.filter (· ≠ k), hold := (gh.t q).hold.filter (· ≠ k) } → gh'.c = gh.c → ∀ j, j ≠ k → gh'.rest q j = gh.rest q j := by
    intro gh' e1 e2 j hj
    have : gh'.Past q j ↔ gh.Past q j := by
      unfold Ghost.Past
      rw [e1, e2]
      simp [hj]
    unfold Ghost.rest
    simp only [this, e1]
  have hstep : x.step (.leave q k) = .ok (_, .left q k) := if_pos hl
  have sub : ∀ j, j ∈ (unjoin x.g q k).dst q → j ∈ x.g.dst q ∧ j ≠ k := by
    intro j hj; rw [hdq] at hj; simpa using hj
  refine ⟨_, _, { gh with t := Pool.set gh.t q { gh.t q with members := (gh.t q).members.filter (· ≠ k), todo := (gh.t q).todo.filter (· ≠ k), hold := (gh.t q).hold.filter (· ≠ k) } }, fo, hstep, ⟨unjoin_ok h.ok, ?_, ?_, ?_, ?_, ?_⟩⟩
  · refine change q h.inv rfl (fun p e => rfl) ?_ (fun _ _ _ => Iff.rfl) ?_ hdst ⟨hR', by rw [hring]; exact (h.inv.rd q).2⟩ ?_ ?_
      (.inr ⟨hring, rfl⟩) (fun _ _ _ => rfl) (fun _ _ => rfl) ?_ ?_ ?_ ?_
    · intro p j e; rw [unjoin_ins]; simp [e]
    · intro w j hw
      refine ⟨fun hj => unjoin_ins.2 ⟨hj, fun hh => ?_⟩, id⟩
      exact hidle w (by rw [← hh.1]; exact hw)
    · rw [hdq, ← h.inv.members]
    · intro j
      show ((gh.t q).active = true ∧ j ∈ (gh.t q).hold.filter (· ≠ k)) ↔ _
      by_cases e : j = k
      · subst e
        exact ⟨fun hh => by simp at hh, fun hh => absurd hh hnh⟩
      · unfold Ghost.Holds; simp [e]
    · intro p e j; rw [unwoken_snoc]
    · intro j hj gh' e1 e2
      obtain ⟨hj, hne⟩ := sub j hj
      rw [hpast gh' e1 e2 j hne]
      exact h.inv.hist q j hj
    · intro gh' e1 e2 i hi j hj
      obtain ⟨hi, hni⟩ := sub i hi
      obtain ⟨hj, hnj⟩ := sub j hj
      rw [hpast gh' e1 e2 i hni, hpast gh' e1 e2 j hnj]
      exact h.inv.same q i hi j hj
    · intro j hj hu hr hne
      rw [unwoken_snoc] at hu
      exact h.inv.wake q j (unjoin_ins.1 hj).1 hu hr hne
  · intro p j hj
    rw [seen_snoc, newcomer_snoc]
    exact h.tie p j (unjoin_dst.1 hj).1
  · intro p hp
    rw [committed_snoc]
    exact h.made p hp
  · intro p j hp
    refine h.live p j ?_
    rcases hp with hp | hp | hp
    · exact .inl (unjoin_ins.1 hp).1
    · exact .inr (.inl hp)
    · exact .inr (.inr (unjoin_dst.1 hp).1)
  · intro p hp
    by_cases e : p = q
    · subst e
      exact List.ne_nil_of_mem (unjoin_dst.2 ⟨hj0, fun hh => hjk hh.1⟩)
    · rw [hdst p e]; exact h.fed p hp

theorem step_inv (h : DI x gh fo outs) (op : Op α) (ha : Allowed x op) :
    ∃ x' o gh' fo', x.step op = .ok (x', o) ∧ DI x' gh' fo' (outs ++ [o]) := by
  cases op with
  | flow op => exact flow_inv h op
  | connect w r q size d => exact connect_inv h ha
  | share q k => exact share_inv h ha
  | leave q k => exact leave_inv h ha
  | cut q => exact cut_inv h ha

theorem init_inv (periodic : Nat → Bool) (d : α) (time : Nat → Nat) :
    ∃ gh, DI (D.init periodic d time) gh [] [] := by
  have ok : (noLinks periodic).Ok := ⟨fun _ _ h => (by simp [noLinks] at h), fun _ _ h => (by simp [noLinks] at h), fun _ => List.nodup_nil, fun _ => List.nodup_nil⟩
  obtain ⟨gh, h⟩ := Net.init_inv (noLinks periodic) ok (fun _ => 3) (fun _ => Nat.le_refl _) (fun _ _ => d) time
  refine ⟨gh, ok, { h with wake := ?_ }, ?_, ?_, ?_, ?_⟩
  · intro q k hq; simp [D.init, noLinks] at hq
  · intro q k hk; simp [D.init, noLinks] at hk
  · intro q hq; simp [D.init] at hq
  · intro q k hk; simp [D.init, noLinks] at hk
  · intro q hq; simp [D.init] at hq

theorem run_inv (ops : List (Op α)) : ∀ {x : D α} {gh : Ghost α} {fo : List (Net.Out α)} {outs : List (Out α)}, DI x gh fo outs →
    AllowedRun x ops → ∃ x' os gh' fo', runOps D.step x ops = .ok (x', os) ∧ DI x' gh' fo' (outs ++ os) := by
  induction ops with
  | nil => intro x gh fo outs h _; exact ⟨x, [], gh, fo, rfl, by simpa using h⟩
  | cons op ops ih =>
    intro x gh fo outs h ⟨ha, hn⟩
    obtain ⟨x1, o, g1, f1, h1, h2⟩ := step_inv h op ha
    obtain ⟨x2, os, g2, f2, h3, h4⟩ := ih h2 (hn _ _ h1)
    refine ⟨x2, o :: os, g2, f2, by simp [runOps, h1, h3], by simpa using h4⟩

end Lms.Rewire
