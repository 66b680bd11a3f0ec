import Verif.JsonTree.Spec

namespace Lms.JsonTree

open Json (Str VType)

/-- The list of nodes at these addresses holds these trees, on pairwise disjoint places. -/
def RepL (R : Nat → Tree → (Nat → Prop) → Prop) : List (Str × Nat) → List (Str × Tree) → (Nat → Prop) → Prop
  | [], [], S => ∀ x, ¬S x
  | (k, c) :: l, (k', t) :: ts, S => k = k' ∧ ∃ S1 S2, R c t S1 ∧ RepL R l ts S2 ∧ (∀ x, S1 x → ¬S2 x) ∧ ∀ x, S x ↔ S1 x ∨ S2 x
  | _, _, _ => False

/-- The node at `a` holds the tree, on exactly the places `S`. -/
def Rep (h : H) : Nat → Nat → Tree → (Nat → Prop) → Prop
  | 0, _, _, _ => False
  | _ + 1, a, .val t s, S => h.cell a = .val t s ∧ ∀ x, S x ↔ x = a
  | n + 1, a, .node b ts, S => ∃ l S', h.cell a = .node b l ∧ RepL (Rep h n) l ts S' ∧ ¬S' a ∧ ∀ x, S x ↔ x = a ∨ S' x

theorem RepL.mono {R R' : Nat → Tree → (Nat → Prop) → Prop} : ∀ (l ts S), RepL R l ts S → (∀ c t S1, R c t S1 → (∀ x, S1 x → S x) → R' c t S1) → RepL R' l ts S
  | [], [], _, h, _ => h
  | (k, c) :: l, (k', t) :: ts, S, ⟨e, S1, S2, h1, h2, hd, hs⟩, f =>
    ⟨e, S1, S2, f _ _ _ h1 (fun x hx => (hs x).2 (.inl hx)),
      RepL.mono l ts S2 h2 (fun c t S3 h3 h4 => f c t S3 h3 fun x hx => (hs x).2 (.inr (h4 x hx))), hd, hs⟩
  | [], _ :: _, _, h, _ => h.elim
  | _ :: _, [], _, h, _ => h.elim

theorem Rep.congr {h h' : H} : ∀ n a t S, Rep h n a t S → (∀ x, S x → h'.cell x = h.cell x) → Rep h' n a t S
  | 0, _, _, _, hr, _ => hr
  | n + 1, a, .val t s, S, ⟨h1, h2⟩, f => ⟨by rw [f a ((h2 a).2 rfl)]; exact h1, h2⟩
  | n + 1, a, .node b ts, S, ⟨l, S', h1, h2, h3, h4⟩, f =>
    ⟨l, S', by rw [f a ((h4 a).2 (.inl rfl))]; exact h1,
      h2.mono _ _ _ (fun c t S1 hr hs => Rep.congr n c t S1 hr fun x hx => f x ((h4 x).2 (.inr (hs x hx)))), h3, h4⟩

theorem Rep.up {h : H} : ∀ n a t S, Rep h n a t S → Rep h (n + 1) a t S
  | 0, _, _, _, hr => hr.elim
  | _ + 1, _, .val _ _, _, hr => hr
  | n + 1, _, .node _ _, _, ⟨l, S', h1, h2, h3, h4⟩ =>
    ⟨l, S', h1, h2.mono _ _ _ (fun c t S1 hr _ => Rep.up n c t S1 hr), h3, h4⟩

theorem Rep.ups {h : H} {n m a t S} (hr : Rep h n a t S) (hm : n ≤ m) : Rep h m a t S := by
  induction hm with
  | refl => exact hr
  | step _ ih => exact ih.up

/-- The depth is at most the number of places. -/
theorem Rep.depth {h : H} : ∀ n a t S (L : List Nat), Rep h n a t S → (∀ x, S x → x ∈ L) → Rep h L.length a t S
  | 0, _, _, _, _, hr, _ => hr.elim
  | n + 1, a, .val t s, S, L, ⟨h1, h2⟩, hL => by
    have ha := hL a ((h2 a).2 rfl)
    cases L with
    | nil => simp at ha
    | cons b L => exact ⟨h1, h2⟩
  | n + 1, a, .node b ts, S, L, ⟨l, S', h1, h2, h3, h4⟩, hL => by
    have ha := hL a ((h4 a).2 (.inl rfl))
    have hlen : L.length = (L.erase a).length + 1 := by
      rw [List.length_erase_of_mem ha]
      have := List.length_pos_of_mem ha
      omega
    rw [hlen]
    refine ⟨l, S', h1, h2.mono _ _ _ (fun c t S1 hr hs => Rep.depth n c t S1 (L.erase a) hr ?_), h3, h4⟩
    intro x hx
    have hx' := hs x hx
    refine (List.mem_erase_of_ne ?_).2 (hL x ((h4 x).2 (.inr hx')))
    intro e; subst e; exact h3 hx'

theorem Rep.full {h : H} {n a t S} (hr : Rep h n a t S) (hS : ∀ x, S x → x < h.next) : Rep h h.next a t S := by
  have := Rep.depth n a t S (List.range h.next) hr (fun x hx => List.mem_range.2 (hS x hx))
  rwa [List.length_range] at this

theorem Rep.root {h : H} {n a t S} (hr : Rep h n a t S) : S a := by
  cases n with
  | zero => exact hr.elim
  | succ n =>
    cases t with
    | val t s => exact (hr.2 a).2 rfl
    | node b ts => obtain ⟨l, S', _, _, _, h4⟩ := hr; exact (h4 a).2 (.inl rfl)

theorem RepL.live {h : H} {R : Nat → Tree → (Nat → Prop) → Prop} (hR : ∀ c t S, R c t S → ∀ x, S x → (h.cell x).Live) :
    ∀ l ts S, RepL R l ts S → ∀ x, S x → (h.cell x).Live
  | [], [], _, hr, x, hx => (hr x hx).elim
  | (k, c) :: l, (k', t) :: ts, S, ⟨_, S1, S2, h1, h2, _, hs⟩, x, hx =>
    match (hs x).1 hx with
    | .inl h3 => hR _ _ _ h1 x h3
    | .inr h3 => RepL.live hR l ts S2 h2 x h3
  | [], _ :: _, _, hr, _, _ => hr.elim
  | _ :: _, [], _, hr, _, _ => hr.elim

theorem Rep.live {h : H} : ∀ n a t S, Rep h n a t S → ∀ x, S x → (h.cell x).Live
  | 0, _, _, _, hr, _, _ => hr.elim
  | n + 1, a, .val t s, S, ⟨h1, h2⟩, x, hx => by rw [(h2 x).1 hx, h1]; trivial
  | n + 1, a, .node b ts, S, ⟨l, S', h1, h2, h3, h4⟩, x, hx => by
    rcases (h4 x).1 hx with e | e
    · rw [e, h1]; trivial
    · exact RepL.live (Rep.live n) l ts S' h2 x e

/-- Only which places are in the set counts. -/
theorem Rep.eqv {h : H} {n a t S T} (hr : Rep h n a t S) (e : ∀ x, S x ↔ T x) : Rep h n a t T := by
  have : S = T := funext fun x => propext (e x)
  rwa [← this]

theorem RepL.eqv {R : Nat → Tree → (Nat → Prop) → Prop} {l ts S T} (hr : RepL R l ts S) (e : ∀ x, S x ↔ T x) : RepL R l ts T := by
  have : S = T := funext fun x => propext (e x)
  rwa [← this]

theorem put_same (h : H) (a c) : (h.put a c).cell a = c := by simp [H.put]

theorem put_ne (h : H) {a x} (c) (hx : x ≠ a) : (h.put a c).cell x = h.cell x := by simp [H.put, hx]

theorem alloc_old (h : H) (c) {x} (hx : x < h.next) : (h.alloc c).1.cell x = h.cell x := by
  simp [H.alloc, Nat.ne_of_lt hx]

/-! Copying -/

/-- What a copier of depth `n` must do. -/
def Copies (n : Nat) (f : H → Nat → Outcome (H × Nat)) : Prop :=
  ∀ h a t S, Rep h n a t S → (∀ x, S x → x < h.next) → ∃ h' a', f h a = .ok (h', a') ∧
    Rep h' n a' t (fun x => h.next ≤ x ∧ x < h'.next) ∧ h.next ≤ h'.next ∧ ∀ x, x < h.next → h'.cell x = h.cell x

theorem each_ok {n f} (hf : Copies n f) : ∀ (h : H) l ts S, RepL (Rep h n) l ts S → (∀ x, S x → x < h.next) →
    ∃ h' l', each f h l = .ok (h', l') ∧ RepL (Rep h' n) l' ts (fun x => h.next ≤ x ∧ x < h'.next) ∧ h.next ≤ h'.next ∧
      ∀ x, x < h.next → h'.cell x = h.cell x
  | h, [], [], S, _, _ => ⟨h, [], rfl, fun x hx => by omega, Nat.le_refl _, fun _ _ => rfl⟩
  | h, (k, c) :: l, (k', t) :: ts, S, ⟨e, S1, S2, h1, h2, hd, hs⟩, hb => by
    obtain ⟨ha, a', e1, r1, n1, c1⟩ := hf h c t S1 h1 (fun x hx => hb x ((hs x).2 (.inl hx)))
    have hb2 : ∀ x, S2 x → x < h.next := fun x hx => hb x ((hs x).2 (.inr hx))
    have h2' : RepL (Rep ha n) l ts S2 := h2.mono _ _ _ (fun c t S3 h3 h4 => h3.congr _ _ _ _ fun x hx => c1 x (hb2 x (h4 x hx)))
    obtain ⟨hb', l', e2, r2, n2, c2⟩ := each_ok hf ha l ts S2 h2' (fun x hx => Nat.lt_of_lt_of_le (hb2 x hx) n1)
    refine ⟨hb', (k, a') :: l', by simp [each, e1, e2, Outcome.bind, Outcome.map], ?_, Nat.le_trans n1 n2, ?_⟩
    · refine ⟨e, _, _, r1.congr _ _ _ _ (fun x hx => c2 x hx.2), r2, ?_, ?_⟩
      · intro x hx hx'; omega
      · intro x; omega
    · intro x hx
      rw [c2 x (Nat.lt_of_lt_of_le hx n1), c1 x hx]
  | _, [], _ :: _, _, hr, _ => hr.elim
  | _, _ :: _, [], _, hr, _ => hr.elim

theorem copyN_ok : ∀ n, Copies n (copyN n)
  | 0 => fun _ _ _ _ hr _ => hr.elim
  | n + 1 => by
    intro h a t S hr hb
    cases t with
    | val t s =>
      obtain ⟨h1, h2⟩ := hr
      refine ⟨(h.alloc (.val t s)).1, h.next, by simp only [copyN, h1]; rfl, ⟨by simp [H.alloc], ?_⟩, by simp [H.alloc], ?_⟩
      · intro x; simp only [H.alloc]; omega
      · intro x hx; exact alloc_old _ _ hx
    | node b ts =>
      obtain ⟨l, S', h1, h2, h3, h4⟩ := hr
      obtain ⟨h', l', e, r, n1, c⟩ := each_ok (copyN_ok n) h l ts S' h2 (fun x hx => hb x ((h4 x).2 (.inr hx)))
      refine ⟨(h'.alloc (.node b l')).1, h'.next, by simp only [copyN, h1, e]; rfl, ?_, ?_, ?_⟩
      · refine ⟨l', _, by simp [H.alloc], r.mono _ _ _ (fun c t S1 hr hs => hr.congr _ _ _ _ fun x hx => alloc_old _ _ (hs x hx).2), ?_, ?_⟩
        · intro hx; omega
        · intro x; simp only [H.alloc]; omega
      · simp only [H.alloc]; omega
      · intro x hx
        rw [alloc_old _ _ (Nat.lt_of_lt_of_le hx n1), c x hx]

/-! Deleting -/

/-- What deleting must do. -/
def Deletes (n : Nat) (f : H → Nat → Outcome H) : Prop :=
  ∀ h a t S, Rep h n a t S → ∃ h', f h a = .ok h' ∧ h'.next = h.next ∧ (∀ x, S x → h'.cell x = .gone) ∧
    ∀ x, ¬S x → h'.cell x = h.cell x

theorem eachDel_ok {n f} (hf : Deletes n f) : ∀ (h : H) l ts S, RepL (Rep h n) l ts S →
    ∃ h', eachDel f h l = .ok h' ∧ h'.next = h.next ∧ (∀ x, S x → h'.cell x = .gone) ∧ ∀ x, ¬S x → h'.cell x = h.cell x
  | h, [], [], S, hr => ⟨h, rfl, rfl, fun x hx => (hr x hx).elim, fun _ _ => rfl⟩
  | h, (k, c) :: l, (k', t) :: ts, S, ⟨e, S1, S2, h1, h2, hd, hs⟩ => by
    obtain ⟨ha, e1, n1, g1, c1⟩ := hf h c t S1 h1
    have h2' : RepL (Rep ha n) l ts S2 := h2.mono _ _ _ (fun c t S3 h3 h4 => h3.congr _ _ _ _ fun x hx => c1 x (fun hx1 => hd x hx1 (h4 x hx)))
    obtain ⟨hb, e2, n2, g2, c2⟩ := eachDel_ok hf ha l ts S2 h2'
    refine ⟨hb, by simp [eachDel, e1, e2, Outcome.bind], n2.trans n1, ?_, ?_⟩
    · intro x hx
      rcases (hs x).1 hx with hx | hx
      · rw [c2 x (hd x hx), g1 x hx]
      · exact g2 x hx
    · intro x hx
      rw [c2 x (fun h => hx ((hs x).2 (.inr h))), c1 x (fun h => hx ((hs x).2 (.inl h)))]
  | _, [], _ :: _, _, hr => hr.elim
  | _, _ :: _, [], _, hr => hr.elim

theorem deleteN_ok : ∀ n, Deletes n (deleteN n)
  | 0 => fun _ _ _ _ hr => hr.elim
  | n + 1 => by
    intro h a t S hr
    cases t with
    | val t s =>
      obtain ⟨h1, h2⟩ := hr
      refine ⟨h.put a .gone, by simp only [deleteN, h1], rfl, ?_, ?_⟩
      · intro x hx; rw [(h2 x).1 hx, put_same]
      · intro x hx; exact put_ne _ _ (fun e => hx ((h2 x).2 e))
    | node b ts =>
      obtain ⟨l, S', h1, h2, h3, h4⟩ := hr
      obtain ⟨h', e, n1, g, c⟩ := eachDel_ok (deleteN_ok n) h l ts S' h2
      refine ⟨h'.put a .gone, by simp only [deleteN, h1, e]; rfl, n1, ?_, ?_⟩
      · intro x hx
        by_cases hxa : x = a
        · rw [hxa, put_same]
        · rw [put_ne _ _ hxa]
          rcases (h4 x).1 hx with hx | hx
          · exact (hxa hx).elim
          · exact g x hx
      · intro x hx
        rw [put_ne _ _ (fun e => hx ((h4 x).2 (.inl e))), c x (fun h => hx ((h4 x).2 (.inr h)))]

/-! Reading -/

theorem eachRead_ok {R : Nat → Tree → (Nat → Prop) → Prop} {f} (hf : ∀ c t S, R c t S → f c = .ok t) :
    ∀ l ts S, RepL R l ts S → eachRead f l = .ok ts
  | [], [], _, _ => rfl
  | (k, c) :: l, (k', t) :: ts, S, ⟨e, S1, S2, h1, h2, _, _⟩ => by
    simp [eachRead, hf _ _ _ h1, eachRead_ok hf l ts S2 h2, Outcome.bind, Outcome.map, e]
  | [], _ :: _, _, hr => hr.elim
  | _ :: _, [], _, hr => hr.elim

theorem readN_ok {h : H} : ∀ n a t S, Rep h n a t S → readN n h a = .ok t
  | 0, _, _, _, hr => hr.elim
  | n + 1, a, .val t s, S, ⟨h1, _⟩ => by simp only [readN, h1]
  | n + 1, a, .node b ts, S, ⟨l, S', h1, h2, _, _⟩ => by
    simp only [readN, h1, eachRead_ok (readN_ok n) l ts S' h2]; rfl

/-! Lists of children -/

theorem RepL.names {R : Nat → Tree → (Nat → Prop) → Prop} : ∀ l ts S, RepL R l ts S → l.map (·.1) = ts.map (·.1)
  | [], [], _, _ => rfl
  | (k, c) :: l, (k', t) :: ts, S, ⟨e, _, _, _, h2, _, _⟩ => by simp [e, RepL.names l ts _ h2]
  | [], _ :: _, _, hr => hr.elim
  | _ :: _, [], _, hr => hr.elim

theorem RepL.len {R : Nat → Tree → (Nat → Prop) → Prop} {l ts S} (hr : RepL R l ts S) : l.length = ts.length := by
  have := congrArg List.length (RepL.names _ _ _ hr)
  simpa using this

theorem findIdx_names {α β : Type} (k : Str) : ∀ (l : List (Str × α)) (ts : List (Str × β)), l.map (·.1) = ts.map (·.1) →
    l.findIdx? (fun e => e.1 = k) = ts.findIdx? (fun e => e.1 = k)
  | [], [], _ => rfl
  | (k1, _) :: l, (k2, _) :: ts, e => by
    simp only [List.map_cons, List.cons.injEq] at e
    simp only [List.findIdx?_cons, e.1, findIdx_names k l ts e.2]
  | [], _ :: _, e => by simp at e
  | _ :: _, [], e => by simp at e

theorem RepL.at {R : Nat → Tree → (Nat → Prop) → Prop} {l ts S} (hr : RepL R l ts S) (b : Bool) (s : Step) : s.at b l = s.at b ts := by
  cases s with
  | name k => simp only [Step.at]; rw [findIdx_names k l ts (RepL.names _ _ _ hr)]
  | idx i => simp only [Step.at, hr.len]

theorem at_lt {β : Type} {b : Bool} {l : List (Str × β)} {s : Step} {i : Nat} (h : s.at b l = some i) : i < l.length := by
  cases s with
  | name k =>
    simp only [Step.at] at h
    split at h
    · have := List.findIdx?_eq_some_iff_getElem.1 h
      exact this.1
    · simp at h
  | idx j =>
    simp only [Step.at] at h
    split at h
    · simp at h
    · split at h
      · simp at h; omega
      · simp at h

/-- One child taken out of the list, and put back changed. -/
theorem RepL.split {R : Nat → Tree → (Nat → Prop) → Prop} : ∀ (l ts S) (i : Nat), RepL R l ts S → i < l.length →
    ∃ k c t S1 S2, l[i]? = some (k, c) ∧ ts[i]? = some (k, t) ∧ R c t S1 ∧ (∀ x, S1 x → ¬S2 x) ∧ (∀ x, S x ↔ S1 x ∨ S2 x) ∧
      RepL R (l.eraseIdx i) (ts.eraseIdx i) S2 ∧
      ∀ (R' : Nat → Tree → (Nat → Prop) → Prop) t' S1', (∀ c t S3, R c t S3 → (∀ x, S3 x → S2 x) → R' c t S3) →
        R' c t' S1' → (∀ x, S1' x → ¬S2 x) → RepL R' l (ts.set i (k, t')) (fun x => S1' x ∨ S2 x)
  | [], [], _, _, _, hi => by simp at hi
  | (k, c) :: l, (k', t) :: ts, S, 0, ⟨e, S1, S2, h1, h2, hd, hs⟩, _ => by
    subst e
    refine ⟨k, c, t, S1, S2, rfl, rfl, h1, hd, hs, h2, ?_⟩
    intro R' t' S1' hR h1' hd'
    exact ⟨rfl, S1', S2, h1', h2.mono _ _ _ hR, hd', fun _ => Iff.rfl⟩
  | (k0, c0) :: l, (k', t0) :: ts, S, i + 1, ⟨e, S1, S2, h1, h2, hd, hs⟩, hi => by
    subst e
    obtain ⟨k, c, t, T1, T2, e1, e2, r, d, s, er, pl⟩ := RepL.split l ts S2 i h2 (by simpa using hi)
    refine ⟨k, c, t, T1, fun x => S1 x ∨ T2 x, by simpa using e1, by simpa using e2, r, ?_, ?_, ?_, ?_⟩
    · intro x hx hx'
      rcases hx' with hx' | hx'
      · exact hd x hx' ((s x).2 (.inl hx))
      · exact d x hx hx'
    · intro x
      constructor
      · intro hx
        rcases (hs x).1 hx with hx | hx
        · exact .inr (.inl hx)
        · rcases (s x).1 hx with hx | hx
          · exact .inl hx
          · exact .inr (.inr hx)
      · rintro (hx | hx | hx)
        · exact (hs x).2 (.inr ((s x).2 (.inl hx)))
        · exact (hs x).2 (.inl hx)
        · exact (hs x).2 (.inr ((s x).2 (.inr hx)))
    · exact ⟨rfl, S1, T2, h1, er, fun x hx hx' => hd x hx ((s x).2 (.inr hx')), fun _ => Iff.rfl⟩
    · intro R' t' S1' hR h1' hd'
      refine ⟨rfl, S1, fun x => S1' x ∨ T2 x, hR _ _ _ h1 (fun x hx => .inl hx), pl R' t' S1' (fun c t S3 h3 h4 => hR _ _ _ h3 (fun x hx => .inr (h4 x hx))) h1' (fun x hx hx' => hd' x hx (.inr hx')), ?_, ?_⟩
      · intro x hx hx'
        rcases hx' with hx' | hx'
        · exact hd' x hx' (.inl hx)
        · exact hd x hx ((s x).2 (.inr hx'))
      · intro x
        constructor
        · rintro (h | h | h)
          · exact .inr (.inl h)
          · exact .inl h
          · exact .inr (.inr h)
        · rintro (h | h | h)
          · exact .inr (.inl h)
          · exact .inl h
          · exact .inr (.inr h)
  | [], _ :: _, _, _, hr, _ => hr.elim
  | _ :: _, [], _, _, hr, _ => hr.elim

theorem RepL.snoc {R : Nat → Tree → (Nat → Prop) → Prop} {k c t S2} : ∀ (l ts S), RepL R l ts S → R c t S2 → (∀ x, S x → ¬S2 x) →
    RepL R (l ++ [(k, c)]) (ts ++ [(k, t)]) (fun x => S x ∨ S2 x)
  | [], [], S, hr, h1, _ => ⟨rfl, S2, fun _ => False, h1, fun _ h => h, fun _ _ h => h, fun x => by
      constructor
      · rintro (h | h)
        · exact (hr x h).elim
        · exact .inl h
      · rintro (h | h)
        · exact .inr h
        · exact h.elim⟩
  | (k0, c0) :: l, (k', t0) :: ts, S, ⟨e, T1, T2, h1, h2, hd, hs⟩, h3, h4 => by
    refine ⟨e, T1, fun x => T2 x ∨ S2 x, h1, RepL.snoc l ts T2 h2 h3 (fun x hx => h4 x ((hs x).2 (.inr hx))), ?_, ?_⟩
    · intro x hx hx'
      rcases hx' with hx' | hx'
      · exact hd x hx hx'
      · exact h4 x ((hs x).2 (.inl hx)) hx'
    · intro x
      constructor
      · rintro (h | h)
        · rcases (hs x).1 h with h | h
          · exact .inl h
          · exact .inr (.inl h)
        · exact .inr (.inr h)
      · rintro (h | h | h)
        · exact .inl ((hs x).2 (.inl h))
        · exact .inl ((hs x).2 (.inr h))
        · exact .inr h
  | [], _ :: _, _, hr, _, _ => hr.elim
  | _ :: _, [], _, hr, _, _ => hr.elim

/-! Following a path, and changing what is at its end -/

/-- What is found at the end of a path, and that it can be replaced. -/
structure Focus (h : H) (a : Nat) (t : Tree) (S : Nat → Prop) (p : List Step) (b : Nat) (u : Tree) (n : Nat) (T : Nat → Prop) : Prop where
  rep : Rep h n b u T
  sub : ∀ x, T x → S x
  plug : ∀ (h' : H) u' n' T', Rep h' n' b u' T' → (∀ x, S x → ¬T x → h'.cell x = h.cell x) → (∀ x, T' x → S x → T x) →
    ∃ m, Rep h' m a (t.put p u') (fun x => (S x ∧ ¬T x) ∨ T' x)

theorem focus {h : H} : ∀ (p : List Step) n a t S, Rep h n a t S →
    match t.get p with
    | none => resolve h a p = .ok none
    | some u => ∃ b n' T, resolve h a p = .ok (some b) ∧ Focus h a t S p b u n' T
  | [], n, a, t, S, hr => by
    cases t <;>
    · simp only [Tree.get]
      refine ⟨a, n, S, rfl, hr, fun _ hx => hx, ?_⟩
      intro h' u' n' T' h1 _ _
      refine ⟨n', ?_⟩
      simp only [Tree.put]
      refine h1.eqv fun x => ⟨.inr, ?_⟩
      rintro (⟨h1, h2⟩ | h1)
      · exact (h2 h1).elim
      · exact h1
  | s :: p, 0, a, t, S, hr => hr.elim
  | s :: p, n + 1, a, .val t v, S, hr => by simp only [Tree.get, resolve, hr.1]
  | s :: p, n + 1, a, .node b ts, S, ⟨l, S', h1, h2, h3, h4⟩ => by
    simp only [Tree.get, resolve, h1]
    have hat := h2.at b s
    cases hs : s.at b ts with
    | none => rw [hat, hs]; rfl
    | some i =>
      have hi : i < l.length := by rw [h2.len]; exact at_lt hs
      obtain ⟨k, c, t, S1, S2, e1, e2, r, d, su, er, pl⟩ := RepL.split l ts S' i h2 hi
      simp only [hat, hs, Option.bind_some, e1, e2]
      have ih := focus p n c t S1 r
      cases hg : t.get p with
      | none => rw [hg] at ih; exact ih
      | some u =>
        rw [hg] at ih
        obtain ⟨b', n', T, e, f⟩ := ih
        refine ⟨b', n', T, e, f.rep, ?_, ?_⟩
        · intro x hx
          exact (h4 x).2 (.inr ((su x).2 (.inl (f.sub x hx))))
        · intro h' u' n2 T' hr' hk hn
          have hS1 : ∀ x, S1 x → S x := fun x hx => (h4 x).2 (.inr ((su x).2 (.inl hx)))
          have hS2 : ∀ x, S2 x → S x := fun x hx => (h4 x).2 (.inr ((su x).2 (.inr hx)))
          have hTS1 := f.sub
          obtain ⟨m, hm⟩ := f.plug h' u' n2 T' hr' (fun x hx => hk x (hS1 x hx)) (fun x hx hx' => hn x hx (hS1 x hx'))
          refine ⟨max m n + 1, ?_⟩
          simp only [Tree.put, hs, e2]
          refine ⟨l, fun x => ((S1 x ∧ ¬T x) ∨ T' x) ∨ S2 x, ?_, ?_, ?_, ?_⟩
          · rw [hk a ((h4 a).2 (.inl rfl)) (fun hx => h3 ((su a).2 (.inl (hTS1 a hx)))), h1]
          · refine pl (Rep h' (max m n)) (t.put p u') _ ?_ (hm.ups (Nat.le_max_left _ _)) ?_
            · intro c t S3 h3 h4'
              refine (h3.congr _ _ _ _ ?_).ups (Nat.le_max_right _ _)
              intro x hx
              exact hk x (hS2 x (h4' x hx)) (fun hT => d x (hTS1 x hT) (h4' x hx))
            · rintro x (hx | hx) hx'
              · exact d x hx.1 hx'
              · exact d x (hTS1 x (hn x hx (hS2 x hx'))) hx'
          · rintro ((hx | hx) | hx)
            · exact h3 ((su a).2 (.inl hx.1))
            · exact h3 ((su a).2 (.inl (hTS1 a (hn a hx ((h4 a).2 (.inl rfl))))))
            · exact h3 ((su a).2 (.inr hx))
          · intro x
            constructor
            · rintro (⟨hx, hnx⟩ | hx)
              · rcases (h4 x).1 hx with hx | hx
                · exact .inl hx
                · rcases (su x).1 hx with hx | hx
                  · exact .inr (.inl (.inl ⟨hx, hnx⟩))
                  · exact .inr (.inr hx)
              · exact .inr (.inl (.inr hx))
            · rintro (hx | (hx | hx) | hx)
              · subst hx
                exact .inl ⟨(h4 x).2 (.inl rfl), fun hx => h3 ((su x).2 (.inl (hTS1 x hx)))⟩
              · exact .inl ⟨hS1 x hx.1, hx.2⟩
              · exact .inr hx
              · exact .inl ⟨hS2 x hx, fun hT => d x (hTS1 x hT) hx⟩

end Lms.JsonTree
