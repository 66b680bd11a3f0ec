import Verif.JsonTree.Lemmas

namespace Lms.JsonTree

open Json (Str VType)

/-- The code in state `m` holds the trees of `e`, the tree of `v` on exactly the places `F v`. -/
structure Inv (m : M) (e : Env) (F : Nat → Nat → Prop) : Prop where
  vars : ∀ v, (e v = none ∧ m.root v = none ∧ ∀ x, ¬F v x) ∨ ∃ t a n, e v = some t ∧ m.root v = some a ∧ Rep m.h n a t (F v)
  disj : ∀ v w x, F v x → F w x → v = w
  bnd : ∀ v x, F v x → x < m.h.next
  all : ∀ x, (m.h.cell x).Live → ∃ v, F v x

/-- The code's step does what the step on values does. -/
def Sim (res : Outcome (M × Out)) (res' : Env × Out) : Prop := ∃ m' F, res = .ok (m', res'.2) ∧ Inv m' res'.1 F

/-- What a reference designates. -/
structure At (m : M) (e : Env) (F : Nat → Nat → Prop) (r : Ref) (b : Nat) (u : Tree) (n : Nat) (T : Nat → Prop) : Prop where
  ex : ∃ t a, e r.v = some t ∧ m.root r.v = some a ∧ Focus m.h a t (F r.v) r.p b u n T

theorem At.rep {m e F r b u n T} (h : At m e F r b u n T) : Rep m.h n b u T := by
  obtain ⟨_, _, _, _, f⟩ := h.ex; exact f.rep

theorem At.sub {m e F r b u n T} (h : At m e F r b u n T) : ∀ x, T x → F r.v x := by
  obtain ⟨_, _, _, _, f⟩ := h.ex; exact f.sub

theorem find_sim {m e F} (hi : Inv m e F) (r : Ref) {k : Nat → Outcome (M × Out)} {k' : Tree → Env × Out}
    (hk : ∀ b u n T, At m e F r b u n T → Sim (k b) (k' u)) : Sim (m.find r k) (e.find r k') := by
  rcases hi.vars r.v with ⟨h1, h2, _⟩ | ⟨t, a, n, h1, h2, h3⟩
  · exact ⟨m, F, by simp only [M.find, h2, Env.find, h1], by simpa only [Env.find, h1] using hi⟩
  · have hf := focus r.p n a t _ h3
    cases hg : t.get r.p with
    | none =>
      rw [hg] at hf
      exact ⟨m, F, by simp only [M.find, h2, hf, Outcome.bind, Env.find, h1, hg], by simpa only [Env.find, h1, hg] using hi⟩
    | some u =>
      rw [hg] at hf
      obtain ⟨b, n', T, e1, f⟩ := hf
      have := hk b u n' T ⟨t, a, h1, h2, f⟩
      simpa only [M.find, h2, e1, Outcome.bind, Env.find, h1, hg] using this

/-- Rewriting what a reference designates. -/
theorem write_inv {m e F r b u n T} (hi : Inv m e F) (ha : At m e F r b u n T) {h' : H} {u' n' T'}
    (hr : Rep h' n' b u' T') (hn : m.h.next ≤ h'.next)
    (hk : ∀ x, x < m.h.next → ¬T x → h'.cell x = m.h.cell x)
    (hT : ∀ x, T' x → T x ∨ (m.h.next ≤ x ∧ x < h'.next))
    (hl : ∀ x, (h'.cell x).Live → (T x ∨ m.h.next ≤ x) → T' x) :
    ∃ F', Inv { m with h := h' } (e.write r u') F' := by
  have hsub := ha.sub
  obtain ⟨t, a, e1, e2, f⟩ := ha.ex
  obtain ⟨m1, hm⟩ := f.plug h' u' n' T' hr (fun x hx hx' => hk x (hi.bnd _ x hx) hx') (fun x hx hx' => by
    rcases hT x hx with h | h
    · exact h
    · have := hi.bnd _ x hx'; omega)
  refine ⟨fun v x => if v = r.v then (F r.v x ∧ ¬T x) ∨ T' x else F v x, ?_, ?_, ?_, ?_⟩
  · intro v
    by_cases hv : v = r.v
    · right
      refine ⟨t.put r.p u', a, m1, by simp [Env.write, Env.to, hv, e1], by rw [hv]; exact e2, ?_⟩
      simpa [hv] using hm
    · rcases hi.vars v with ⟨g1, g2, g3⟩ | ⟨t2, a2, n2, g1, g2, g3⟩
      · exact .inl ⟨by simp [Env.write, Env.to, hv, g1], g2, by simpa [hv] using g3⟩
      · refine .inr ⟨t2, a2, n2, by simp [Env.write, Env.to, hv, g1], g2, ?_⟩
        simp only [hv, if_false]
        refine g3.congr _ _ _ _ fun x hx => hk x (hi.bnd _ x hx) fun hx' => hv (hi.disj _ _ x hx (hsub x hx'))
  · intro v w x hv hw
    have key : ∀ w, w ≠ r.v → F w x → ¬((F r.v x ∧ ¬T x) ∨ T' x) := by
      intro w hw hF hx
      rcases hx with hx | hx
      · exact hw (hi.disj _ _ x hF hx.1)
      · rcases hT x hx with h | h
        · exact hw (hi.disj _ _ x hF (hsub x h))
        · have := hi.bnd _ x hF; omega
    by_cases h1 : v = r.v
    · by_cases h2 : w = r.v
      · rw [h1, h2]
      · simp only [h1, h2, if_true, if_false] at hv hw
        exact (key w h2 hw hv).elim
    · by_cases h2 : w = r.v
      · simp only [h1, h2, if_true, if_false] at hv hw
        exact (key v h1 hv hw).elim
      · simp only [h1, h2, if_false] at hv hw
        exact hi.disj _ _ x hv hw
  · intro v x hx
    show x < h'.next
    have hb : ∀ w, F w x → x < h'.next := fun w h => Nat.lt_of_lt_of_le (hi.bnd w x h) hn
    by_cases h1 : v = r.v
    · simp only [h1, if_true] at hx
      rcases hx with hx | hx
      · exact hb _ hx.1
      · rcases hT x hx with h | h
        · exact hb _ (hsub x h)
        · exact h.2
    · simp only [h1, if_false] at hx
      exact hb _ hx
  · intro x hx
    by_cases hT1 : T x ∨ m.h.next ≤ x
    · exact ⟨r.v, by simp only [if_true]; exact .inr (hl x hx hT1)⟩
    · have h1 : ¬T x := fun h => hT1 (.inl h)
      have h2 : x < m.h.next := by
        have : ¬ m.h.next ≤ x := fun h => hT1 (.inr h)
        omega
      have hx' : (h'.cell x).Live := hx
      rw [hk x h2 h1] at hx'
      obtain ⟨v, hv⟩ := hi.all x hx'
      by_cases h3 : v = r.v
      · exact ⟨v, by simp only [h3, if_true]; exact .inl ⟨h3 ▸ hv, h1⟩⟩
      · exact ⟨v, by simp only [h3, if_false]; exact hv⟩

/-- A new variable, on new places. -/
theorem bind_inv {m e F v} (hi : Inv m e F) (hv : m.root v = none) {h' : H} {t n a}
    (hr : Rep h' n a t (fun x => m.h.next ≤ x ∧ x < h'.next)) (hn : m.h.next ≤ h'.next)
    (hk : ∀ x, x < m.h.next → h'.cell x = m.h.cell x) (hfree : ∀ x, h'.next ≤ x → ¬(h'.cell x).Live) :
    ∃ F', Inv (m.bindVar h' v a) (e.to v (some t)) F' := by
  have hFv : ∀ x, ¬F v x := by
    rcases hi.vars v with ⟨_, _, g⟩ | ⟨_, _, _, _, g, _⟩
    · exact g
    · rw [hv] at g; simp at g
  refine ⟨fun w x => if w = v then m.h.next ≤ x ∧ x < h'.next else F w x, ?_, ?_, ?_, ?_⟩
  · intro w
    by_cases hw : w = v
    · exact .inr ⟨t, a, n, by simp [Env.to, hw], by simp [M.bindVar, hw], by simpa [M.bindVar, hw] using hr⟩
    · rcases hi.vars w with ⟨g1, g2, g3⟩ | ⟨t2, a2, n2, g1, g2, g3⟩
      · exact .inl ⟨by simp [Env.to, hw, g1], by simp [M.bindVar, hw, g2], by simpa [hw] using g3⟩
      · refine .inr ⟨t2, a2, n2, by simp [Env.to, hw, g1], by simp [M.bindVar, hw, g2], ?_⟩
        simp only [hw, if_false]
        exact g3.congr _ _ _ _ fun x hx => hk x (hi.bnd _ x hx)
  · intro w1 w2 x h1 h2
    by_cases e1 : w1 = v
    · by_cases e2 : w2 = v
      · rw [e1, e2]
      · simp only [e1, e2, if_true, if_false] at h1 h2
        have := hi.bnd _ x h2; omega
    · by_cases e2 : w2 = v
      · simp only [e1, e2, if_true, if_false] at h1 h2
        have := hi.bnd _ x h1; omega
      · simp only [e1, e2, if_false] at h1 h2
        exact hi.disj _ _ x h1 h2
  · intro w x hx
    show x < h'.next
    by_cases e1 : w = v
    · simp only [e1, if_true] at hx; exact hx.2
    · simp only [e1, if_false] at hx
      have := hi.bnd _ x hx; omega
  · intro x hx
    have hx' : (h'.cell x).Live := hx
    by_cases h1 : x < m.h.next
    · rw [hk x h1] at hx'
      obtain ⟨w, hw⟩ := hi.all x hx'
      have : w ≠ v := fun e => hFv x (e ▸ hw)
      exact ⟨w, by simp only [this, if_false]; exact hw⟩
    · by_cases h2 : x < h'.next
      · exact ⟨v, by simp only [if_true]; omega⟩
      · exact (hfree x (by omega) hx').elim

/-- Places not handed out yet hold nothing. -/
theorem Inv.fresh {m e F} (hi : Inv m e F) : ∀ x, m.h.next ≤ x → ¬(m.h.cell x).Live := fun x hx hl => by
  obtain ⟨v, hv⟩ := hi.all x hl
  have := hi.bnd _ x hv; omega

theorem At.bnd {m e F r b u n T} (hi : Inv m e F) (h : At m e F r b u n T) : ∀ x, T x → x < m.h.next :=
  fun x hx => hi.bnd _ x (h.sub x hx)

theorem At.full {m e F r b u n T} (hi : Inv m e F) (h : At m e F r b u n T) : Rep m.h m.h.next b u T := h.rep.full (h.bnd hi)

/-- A copier leaves the places beyond alone. -/
def Beyond (f : H → Nat → Outcome (H × Nat)) : Prop :=
  ∀ h a h' a', (∀ x, h.next ≤ x → ¬(h.cell x).Live) → f h a = .ok (h', a') → ∀ x, h'.next ≤ x → ¬(h'.cell x).Live

theorem alloc_beyond {h : H} (c) (hf : ∀ x, h.next ≤ x → ¬(h.cell x).Live) : ∀ x, (h.alloc c).1.next ≤ x → ¬((h.alloc c).1.cell x).Live := by
  intro x hx
  simp only [H.alloc] at hx ⊢
  have : x ≠ h.next := by omega
  simp only [this, if_false]
  exact hf x (by omega)

theorem each_beyond {f} (hb : Beyond f) : ∀ (h : H) l h' l', (∀ x, h.next ≤ x → ¬(h.cell x).Live) → each f h l = .ok (h', l') →
    ∀ x, h'.next ≤ x → ¬(h'.cell x).Live
  | h, [], h', l', hf, e => by simp only [each, Outcome.ok.injEq, Prod.mk.injEq] at e; rw [← e.1]; exact hf
  | h, (k, c) :: l, h', l', hf, e => by
    simp only [each] at e
    cases h1 : f h c with
    | ub => rw [h1] at e; simp [Outcome.bind] at e
    | hang => rw [h1] at e; simp [Outcome.bind] at e
    | ok r =>
      rw [h1] at e
      cases h2 : each f r.1 l with
      | ub => simp [Outcome.bind, Outcome.map, h2] at e
      | hang => simp [Outcome.bind, Outcome.map, h2] at e
      | ok r2 =>
        simp only [Outcome.bind, Outcome.map, h2, Outcome.ok.injEq, Prod.mk.injEq] at e
        rw [← e.1]
        exact each_beyond hb r.1 l r2.1 r2.2 (hb h c r.1 r.2 hf h1) h2

theorem copyN_beyond : ∀ n, Beyond (copyN n)
  | 0 => fun _ _ _ _ _ e => by simp [copyN] at e
  | n + 1 => by
    intro h a h' a' hf e
    simp only [copyN] at e
    cases hc : h.cell a with
    | free => rw [hc] at e; simp at e
    | gone => rw [hc] at e; simp at e
    | val t s =>
      rw [hc] at e
      simp only [Outcome.ok.injEq] at e
      rw [← show (h.alloc (.val t s)).1 = h' from by rw [e]]
      exact alloc_beyond _ hf
    | node b l =>
      rw [hc] at e
      cases h1 : each (copyN n) h l with
      | ub => simp [Outcome.map, h1] at e
      | hang => simp [Outcome.map, h1] at e
      | ok r =>
        simp only [Outcome.map, h1, Outcome.ok.injEq] at e
        rw [← show (r.1.alloc (.node b r.2)).1 = h' from by rw [e]]
        exact alloc_beyond _ (each_beyond (copyN_beyond n) h l r.1 r.2 hf h1)

theorem Rep.cellVal {h : H} {n a t s S} (hr : Rep h n a (.val t s) S) : h.cell a = .val t s ∧ ∀ x, S x ↔ x = a := by
  cases n with
  | zero => exact hr.elim
  | succ n => exact hr

theorem Rep.cellNode {h : H} {n a b ts S} (hr : Rep h n a (.node b ts) S) :
    ∃ n' l S', n = n' + 1 ∧ h.cell a = .node b l ∧ RepL (Rep h n') l ts S' ∧ ¬S' a ∧ ∀ x, S x ↔ x = a ∨ S' x := by
  cases n with
  | zero => exact hr.elim
  | succ n => obtain ⟨l, S', h1⟩ := hr; exact ⟨n, l, S', rfl, h1⟩

theorem RepL.repUps {h : H} {n m l ts S} (hr : RepL (Rep h n) l ts S) (hm : n ≤ m) : RepL (Rep h m) l ts S :=
  hr.mono _ _ _ (fun _ _ _ h _ => h.ups hm)

theorem add_sim {m e F r b u n T} (hi : Inv m e F) (ha : At m e F r b u n T) (kind : Bool) (k : Str) (src : Ref) :
    Sim (m.addTo b kind k src) (e.addTo r u kind k src) := by
  refine find_sim hi src ?_
  intro c w n2 T2 hc
  cases u with
  | val t s =>
    obtain ⟨h1, _⟩ := ha.rep.cellVal
    exact ⟨m, F, by simp [h1, Tree.kind], by simpa [Tree.kind] using hi⟩
  | node kb ts =>
    obtain ⟨n', l, S', en, h1, h2, h3, h4⟩ := ha.rep.cellNode
    by_cases hk : kb = kind
    · subst hk
      obtain ⟨h', c', e1, r1, nn, keep⟩ := copyN_ok m.h.next m.h c w T2 (hc.full hi) (hc.bnd hi)
      have hbT : ∀ x, T x → x < m.h.next := ha.bnd hi
      have hb : b < m.h.next := hbT b ((h4 b).2 (.inl rfl))
      have hfresh := copyN_beyond _ _ _ _ _ hi.fresh e1
      have hcell : h'.cell b = .node kb l := by rw [keep b hb, h1]
      obtain ⟨F', hF'⟩ := write_inv hi ha (h' := h'.put b (.node kb (l ++ [(k, c')]))) (u' := .node kb (ts ++ [(k, w)]))
        (n' := max n' m.h.next + 1) (T' := fun x => T x ∨ (m.h.next ≤ x ∧ x < h'.next)) (by
          refine ⟨l ++ [(k, c')], fun x => S' x ∨ (m.h.next ≤ x ∧ x < h'.next), put_same _ _ _, ?_, ?_, ?_⟩
          · refine RepL.snoc _ _ _ ?_ ?_ ?_
            · refine (h2.mono _ _ _ (fun c t S3 g1 g2 => ?_) : RepL (Rep _ n') l ts S').repUps (Nat.le_max_left _ _)
              refine g1.congr _ _ _ _ fun x hx => ?_
              have hxS := g2 x hx
              have : x ≠ b := fun e => h3 (e ▸ hxS)
              rw [put_ne _ _ this, keep x (hbT x ((h4 x).2 (.inr hxS)))]
            · refine (r1.congr _ _ _ _ fun x hx => ?_).ups (Nat.le_max_right _ _)
              exact put_ne _ _ (by omega)
            · intro x hx hx'
              have := hbT x ((h4 x).2 (.inr hx)); omega
          · rintro (h | h)
            · exact h3 h
            · omega
          · intro x
            show (T x ∨ _) ↔ _
            rw [h4 x]
            constructor
            · rintro ((h | h) | h)
              · exact .inl h
              · exact .inr (.inl h)
              · exact .inr (.inr h)
            · rintro (h | h | h)
              · exact .inl (.inl h)
              · exact .inl (.inr h)
              · exact .inr h) nn (by
          intro x hx hx'
          have : x ≠ b := fun e => hx' (e ▸ (h4 b).2 (.inl rfl))
          rw [put_ne _ _ this, keep x hx]) (fun x hx => hx) (by
          intro x hl hx
          rcases hx with hx | hx
          · exact .inl hx
          · by_cases h5 : x < h'.next
            · exact .inr ⟨hx, h5⟩
            · have : x ≠ b := by omega
              rw [put_ne _ _ this] at hl
              exact (hfresh x (by omega) hl).elim)
      exact ⟨_, F', by simp [h1, e1, Outcome.bind, hcell, Tree.kind]; rfl, by simpa [Tree.kind, Tree.kids] using hF'⟩
    · exact ⟨m, F, by simp [h1, hk, Tree.kind], by simpa [Tree.kind, hk] using hi⟩

theorem removeIdx_sim {m e F r b kb ts n T} (hi : Inv m e F) (ha : At m e F r b (.node kb ts) n T) (s : Step) {l}
    (hl : m.h.cell b = .node kb l) :
    Sim (m.removeIdx b kb l (s.at kb l)) (e.removeIdx r (.node kb ts) kb s) := by
  obtain ⟨n', l', S', en, h1, h2, h3, h4⟩ := (ha.full hi).cellNode
  obtain rfl : l = l' := by rw [hl] at h1; simpa using h1
  have hat := h2.at kb s
  cases hs : s.at kb ts with
  | none => exact ⟨m, F, by simp [M.removeIdx, Env.removeIdx, hat, hs, Tree.kind, Tree.kids], by simpa [Env.removeIdx, hs, Tree.kind, Tree.kids] using hi⟩
  | some i =>
    have hilt : i < l.length := by rw [h2.len]; exact at_lt hs
    obtain ⟨k, c, t, S1, S2, e1, e2, r1, d, su, er, _⟩ := RepL.split l ts S' i h2 hilt
    have r1' : Rep m.h m.h.next c t S1 := r1.ups (by omega)
    obtain ⟨h', e3, n3, g3, c3⟩ := deleteN_ok _ _ _ _ _ r1'
    have hbS1 : ¬S1 b := fun h => h3 ((su b).2 (.inl h))
    obtain ⟨F', hF'⟩ := write_inv hi ha (h' := h'.put b (.node kb (l.eraseIdx i))) (u' := .node kb (ts.eraseIdx i))
        (n' := n' + 1) (T' := fun x => x = b ∨ S2 x) (by
          refine ⟨l.eraseIdx i, S2, put_same _ _ _, ?_, fun h => h3 ((su b).2 (.inr h)), fun _ => Iff.rfl⟩
          refine er.mono _ _ _ fun c t S3 g1 g2 => g1.congr _ _ _ _ fun x hx => ?_
          have hxS := g2 x hx
          have : x ≠ b := fun e => h3 ((su b).2 (.inr (e ▸ hxS)))
          rw [put_ne _ _ this, c3 x (fun h => d x h hxS)]) (by simp [H.put, n3]) (by
          intro x hx hx'
          have : x ≠ b := fun e => hx' ((h4 x).2 (.inl e))
          rw [put_ne _ _ this, c3 x (fun h => hx' ((h4 x).2 (.inr ((su x).2 (.inl h)))))]) (by
          intro x hx
          rcases hx with hx | hx
          · exact .inl ((h4 x).2 (.inl hx))
          · exact .inl ((h4 x).2 (.inr ((su x).2 (.inr hx))))) (by
          intro x hlv hx
          by_cases hxb : x = b
          · exact .inl hxb
          · rw [put_ne _ _ hxb] at hlv
            rcases hx with hx | hx
            · rcases (h4 x).1 hx with h | h
              · exact .inl h
              · rcases (su x).1 h with h | h
                · rw [g3 x h] at hlv; exact hlv.elim
                · exact .inr h
            · have : ¬S1 x := fun h => by
                have := ha.bnd hi x ((h4 x).2 (.inr ((su x).2 (.inl h)))); omega
              rw [c3 x this] at hlv
              exact (hi.fresh x hx hlv).elim)
    refine ⟨_, F', ?_, by simpa [Env.removeIdx, hs, Tree.kind, Tree.kids] using hF'⟩
    simp [M.removeIdx, Env.removeIdx, hat, hs, e1, e3, Outcome.map, Tree.kind, Tree.kids]

theorem kind_cell {h : H} {n a u S} (hr : Rep h n a u S) : kindOf (h.cell a) = some u.kind := by
  cases u with
  | val t s => rw [hr.cellVal.1]; rfl
  | node b ts => obtain ⟨_, _, _, _, h1, _⟩ := hr.cellNode; rw [h1]; rfl

theorem Inv.none_iff {m e F} (hi : Inv m e F) (v : Nat) : (m.root v).isSome = (e v).isSome := by
  rcases hi.vars v with ⟨h1, h2, _⟩ | ⟨_, _, _, h1, h2, _⟩ <;> simp [h1, h2]

theorem step_sim {m e F} (hi : Inv m e F) (o : Op) (ho : ∀ v w, o ≠ .assign v w) : Sim (m.step o) (e.step o) := by
  cases o with
  | mkVal v t s =>
    simp only [M.step, Env.step, hi.none_iff]
    cases hv : (e v).isSome with
    | true => exact ⟨m, F, by simp, by simpa using hi⟩
    | false =>
      have hr : m.root v = none := by have := hi.none_iff v; rw [hv] at this; simpa using this
      obtain ⟨F', hF'⟩ := bind_inv (e := e) hi hr (h' := (m.h.alloc (.val t s)).1) (t := .val t s) (n := 1) (a := m.h.next)
        ⟨by simp [H.alloc], fun x => by simp only [H.alloc]; omega⟩ (by simp [H.alloc]) (fun x hx => alloc_old _ _ hx) (alloc_beyond _ hi.fresh)
      exact ⟨_, F', by simp; rfl, hF'⟩
  | mkNode v b =>
    simp only [M.step, Env.step, hi.none_iff]
    cases hv : (e v).isSome with
    | true => exact ⟨m, F, by simp, by simpa using hi⟩
    | false =>
      have hr : m.root v = none := by have := hi.none_iff v; rw [hv] at this; simpa using this
      obtain ⟨F', hF'⟩ := bind_inv (e := e) hi hr (h' := (m.h.alloc (.node b [])).1) (t := .node b []) (n := 1) (a := m.h.next)
        ⟨[], fun _ => False, by simp [H.alloc], fun _ h => h, fun h => h, fun x => by simp only [H.alloc, or_false]; omega⟩
        (by simp [H.alloc]) (fun x hx => alloc_old _ _ hx) (alloc_beyond _ hi.fresh)
      exact ⟨_, F', by simp; rfl, hF'⟩
  | copy v kind r =>
    simp only [M.step, Env.step, hi.none_iff]
    cases hv : (e v).isSome with
    | true => exact ⟨m, F, by simp, by simpa using hi⟩
    | false =>
      have hr : m.root v = none := by have := hi.none_iff v; rw [hv] at this; simpa using this
      simp only [Bool.false_eq_true, if_false]
      refine find_sim hi r ?_
      intro b u n T ha
      simp only [kind_cell ha.rep]
      by_cases hk : u.kind = kind
      · obtain ⟨h', c', e1, r1, nn, keep⟩ := copyN_ok m.h.next m.h b u T (ha.full hi) (ha.bnd hi)
        obtain ⟨F', hF'⟩ := bind_inv (e := e) hi hr r1 nn keep (copyN_beyond _ _ _ _ _ hi.fresh e1)
        exact ⟨_, F', by simp [hk, e1, Outcome.map]; rfl, by simpa [hk] using hF'⟩
      · exact ⟨m, F, by simp [hk], by simpa [hk] using hi⟩
  | add r k src => exact find_sim hi r fun b u n T ha => add_sim hi ha true k src
  | push r src => exact find_sim hi r fun b u n T ha => add_sim hi ha false [] src
  | remove r k =>
    refine find_sim hi r fun b u n T ha => ?_
    cases u with
    | val t s => exact ⟨m, F, by simp [ha.rep.cellVal.1, Env.removeIdx, Tree.kind], by simpa [Env.removeIdx, Tree.kind] using hi⟩
    | node kb ts =>
      obtain ⟨_, l, _, _, h1, _⟩ := ha.rep.cellNode
      cases kb with
      | true => simp only [h1]; exact removeIdx_sim hi ha _ h1
      | false => exact ⟨m, F, by simp [h1, Env.removeIdx, Tree.kind], by simpa [Env.removeIdx, Tree.kind] using hi⟩
  | removeAt r i =>
    refine find_sim hi r fun b u n T ha => ?_
    cases u with
    | val t s => exact ⟨m, F, by simp [ha.rep.cellVal.1, Env.removeIdx, Tree.kind], by simpa [Env.removeIdx, Tree.kind] using hi⟩
    | node kb ts =>
      obtain ⟨_, l, _, _, h1, _⟩ := ha.rep.cellNode
      cases kb with
      | false => simp only [h1]; exact removeIdx_sim hi ha _ h1
      | true => exact ⟨m, F, by simp [h1, Env.removeIdx, Tree.kind], by simpa [Env.removeIdx, Tree.kind] using hi⟩
  | clear r =>
    refine find_sim hi r fun b u n T ha => ?_
    cases u with
    | val t s => exact ⟨m, F, by simp [ha.rep.cellVal.1, Tree.kind], by simpa [Tree.kind] using hi⟩
    | node kb ts =>
      obtain ⟨n', l, S', en, h1, h2, h3, h4⟩ := (ha.full hi).cellNode
      obtain ⟨h', e3, n3, g3, c3⟩ := eachDel_ok (deleteN_ok m.h.next) m.h l ts S' (h2.repUps (by omega))
      obtain ⟨F', hF'⟩ := write_inv hi ha (h' := h'.put b (.node kb [])) (u' := .node kb []) (n' := 1) (T' := fun x => x = b)
        ⟨[], fun _ => False, put_same _ _ _, fun _ h => h, fun h => h, fun x => by simp⟩ (by simp [H.put, n3]) (by
          intro x hx hx'
          rw [put_ne _ _ (fun e => hx' ((h4 x).2 (.inl e))), c3 x (fun h => hx' ((h4 x).2 (.inr h)))])
        (fun x hx => .inl ((h4 x).2 (.inl hx))) (by
          intro x hlv hx
          by_cases hxb : x = b
          · exact hxb
          · rw [put_ne _ _ hxb] at hlv
            rcases hx with hx | hx
            · rcases (h4 x).1 hx with h | h
              · exact h
              · rw [g3 x h] at hlv; exact hlv.elim
            · have : ¬S' x := fun h => by
                have := ha.bnd hi x ((h4 x).2 (.inr h)); omega
              rw [c3 x this] at hlv
              exact (hi.fresh x hx hlv).elim)
      exact ⟨{ m with h := h'.put b (.node kb []) }, F', by simp [h1, e3, Outcome.map, Tree.kind], by simpa [Tree.kind] using hF'⟩
  | set r t s =>
    refine find_sim hi r fun b u n T ha => ?_
    cases u with
    | node kb ts =>
      obtain ⟨_, l, _, _, h1, _⟩ := ha.rep.cellNode
      exact ⟨m, F, by simp [h1, Tree.kind], by simpa [Tree.kind] using hi⟩
    | val t0 s0 =>
      obtain ⟨h1, h2⟩ := ha.rep.cellVal
      obtain ⟨F', hF'⟩ := write_inv hi ha (h' := m.h.put b (.val t s)) (u' := .val t s) (n' := 1) (T' := T)
        ⟨put_same _ _ _, h2⟩ (Nat.le_refl _) (fun x hx hx' => put_ne _ _ (fun e => hx' ((h2 x).2 e))) (fun x hx => .inl hx) (by
          intro x hlv hx
          rcases hx with hx | hx
          · exact hx
          · by_cases hxb : x = b
            · exact (h2 x).2 hxb
            · rw [put_ne _ _ hxb] at hlv
              exact (hi.fresh x hx hlv).elim)
      exact ⟨{ m with h := m.h.put b (.val t s) }, F', by simp [h1, Tree.kind], by simpa [Tree.kind] using hF'⟩
  | look r =>
    refine find_sim hi r fun b u n T ha => ?_
    exact ⟨m, F, by simp [readN_ok _ _ _ _ (ha.full hi), Outcome.map], hi⟩
  | has r k =>
    refine find_sim hi r fun b u n T ha => ?_
    cases u with
    | val t s => exact ⟨m, F, by simp [ha.rep.cellVal.1, Tree.kind], by simpa [Tree.kind] using hi⟩
    | node kb ts =>
      obtain ⟨_, l, _, _, h1, h2, _⟩ := ha.rep.cellNode
      cases kb with
      | false => exact ⟨m, F, by simp [h1, Tree.kind], by simpa [Tree.kind] using hi⟩
      | true =>
        have := congrArg Option.isSome (h2.at true (.name k))
        simp only [Step.at, if_true, List.findIdx?_isSome] at this
        refine ⟨m, F, ?_, by simpa [Tree.kind] using hi⟩
        simpa [h1, Tree.kind, Tree.kids, Step.at, List.findIdx?_isSome] using this
  | count r =>
    refine find_sim hi r fun b u n T ha => ?_
    cases u with
    | val t s => exact ⟨m, F, by simp [ha.rep.cellVal.1, Tree.kids], hi⟩
    | node kb ts =>
      obtain ⟨_, l, _, _, h1, h2, _⟩ := ha.rep.cellNode
      exact ⟨m, F, by simp [h1, Tree.kids, h2.len], hi⟩
  | assign v w => exact (ho v w rfl).elim
  | destroy v =>
    rcases hi.vars v with ⟨h1, h2, h3⟩ | ⟨t, a, n, h1, h2, h3⟩
    · exact ⟨m, F, by simp [M.step, Env.step, h1, h2], by simpa [Env.step, h1] using hi⟩
    · obtain ⟨h', e3, n3, g3, c3⟩ := deleteN_ok _ _ _ _ _ (h3.full (hi.bnd v))
      refine ⟨{ h := h', root := fun w => if w = v then none else m.root w }, fun w x => w ≠ v ∧ F w x,
        by simp [M.step, Env.step, h1, h2, e3, Outcome.map], ?_⟩
      simp only [Env.step, h1, Option.isSome_some, if_true]
      refine ⟨?_, ?_, ?_, ?_⟩
      · intro w
        by_cases hw : w = v
        · exact .inl ⟨by simp [Env.to, hw], by simp [hw], fun x hx => hx.1 hw⟩
        · rcases hi.vars w with ⟨g1, g2, g4⟩ | ⟨t2, a2, n2, g1, g2, g4⟩
          · exact .inl ⟨by simp [Env.to, hw, g1], by simp [hw, g2], fun x hx => g4 x hx.2⟩
          · refine .inr ⟨t2, a2, n2, by simp [Env.to, hw, g1], by simp [hw, g2], ?_⟩
            exact (g4.congr _ _ _ _ fun x hx => c3 x fun hx' => hw (hi.disj _ _ x hx hx')).eqv fun x => ⟨fun h => ⟨hw, h⟩, fun h => h.2⟩
      · intro w1 w2 x g1 g2; exact hi.disj _ _ x g1.2 g2.2
      · intro w x hx; show x < h'.next; rw [n3]; exact hi.bnd _ x hx.2
      · intro x hx
        have hx' : (h'.cell x).Live := hx
        by_cases hF : F v x
        · rw [g3 x hF] at hx'; exact hx'.elim
        · rw [c3 x hF] at hx'
          obtain ⟨w, hw⟩ := hi.all x hx'
          exact ⟨w, fun e => hF (e ▸ hw), hw⟩

theorem init_inv : Inv M.init (fun _ => none) (fun _ _ => False) where
  vars := fun _ => .inl ⟨rfl, rfl, fun _ h => h⟩
  disj := fun _ _ _ h => h.elim
  bnd := fun _ _ h => h.elim
  all := fun _ h => h.elim

theorem run_sim : ∀ (ops : List Op) {m e F}, Inv m e F → NoAssign ops → ∃ m' F', m.run ops = .ok (m', (e.run ops).2) ∧ Inv m' (e.run ops).1 F'
  | [], m, e, F, hi, _ => ⟨m, F, rfl, hi⟩
  | o :: os, m, e, F, hi, ho => by
    obtain ⟨m1, F1, e1, i1⟩ := step_sim hi o (fun v w h => ho v w (h ▸ List.mem_cons_self))
    obtain ⟨m2, F2, e2, i2⟩ := run_sim os i1 (fun v w h => ho v w (List.mem_cons_of_mem _ h))
    exact ⟨m2, F2, by simp [M.run, e1, e2, Outcome.bind, Outcome.map, Env.run], i2⟩

end Lms.JsonTree
