import Verif.FilterConn.Model

/-!
# Invariant of the connections
-/

namespace Lms.FilterConn

/-- Reader `o` is held by some filter. -/
def held (s : St) (o : Nat) : Prop := ∃ e ∈ s.rs, e.obj = some o

/-- Queue `q` has a writer. -/
def hasW (s : St) (q : Nat) : Prop := ∃ e ∈ s.ws, e.q = q

/-- Queue `q` has a reader. -/
def hasR (s : St) (q : Nat) : Prop := ∃ o, held s o ∧ (s.rdr o).queue = some q

/-- The connections are in order. -/
structure Inv (s : St) : Prop where
  wKey : s.ws.Pairwise fun a b => ¬ (a.f = b.f ∧ a.id = b.id)
  rKey : s.rs.Pairwise fun a b => ¬ (a.f = b.f ∧ a.id = b.id)
  wCell : ∀ e ∈ s.ws, ∃ c, s.cell e.q = .live c e.f e.id
  rCell : ∀ o, held s o → ∀ q, (s.rdr o).queue = some q → ∃ c f w, s.cell q = .live c f w
  rInj : ∀ o p q, held s o → held s p → (s.rdr o).queue = some q → (s.rdr p).queue = some q → o = p
  conn : ∀ q f w, s.cell q = .live true f w → hasW s q ∧ hasR s q
  both : ∀ q, hasW s q → hasR s q → ∃ f w, s.cell q = .live true f w
  live : ∀ q c f w, s.cell q = .live c f w → hasW s q ∨ hasR s q ∨ q ∈ s.lost
  lost : ∀ q ∈ s.lost, ¬ hasW s q ∧ ¬ hasR s q
  old : ∀ q ∈ s.lost, q < s.nextQ
  limW : ∀ f, sizeW s f ≤ s.maxW f
  freshQ : ∀ q, s.nextQ ≤ q → s.cell q = .none
  freshR : ∀ o, held s o → o < s.nextR

theorem upd_same {β : Type} (f : Nat → β) (i : Nat) (v : β) : upd f i v i = v := if_pos rfl
theorem upd_other {β : Type} (f : Nat → β) {i j : Nat} (v : β) (h : j ≠ i) : upd f i v j = f j := if_neg h

theorem inv_init (mr mw : Nat → Nat) : Inv (St.init mr mw) := by
  refine ⟨List.Pairwise.nil, List.Pairwise.nil, ?_, ?_, ?_, ?_, ?_, ?_, ?_, fun q h => by (cases h), ?_, ?_, ?_⟩
  · intro e he; cases he
  · intro o ⟨e, he, _⟩; cases he
  · intro o p q ⟨e, he, _⟩; cases he
  · intro q f w h; cases h
  · intro q ⟨e, he, _⟩; cases he
  · intro q c f w h; cases h
  · intro q h; cases h
  · intro f; exact Nat.zero_le _
  · intro q _; rfl
  · intro o ⟨e, he, _⟩; cases he

/-! ## Looking up -/

theorem findR_some {s : St} {f : Nat} {id : Int} {e : RE} (h : findR s f id = some e) : e ∈ s.rs ∧ e.f = f ∧ e.id = id := by
  have h1 := List.mem_of_find?_eq_some h
  have h2 := List.find?_some h
  simp only [decide_eq_true_eq] at h2
  exact ⟨h1, h2⟩

theorem findR_none {s : St} {f : Nat} {id : Int} (h : findR s f id = none) : ∀ e ∈ s.rs, ¬ (e.f = f ∧ e.id = id) := by
  intro e he hc
  have := List.find?_eq_none.1 h e he
  simp [hc.1, hc.2] at this

theorem findW_some {s : St} {f : Nat} {id : Int} {e : WE} (h : findW s f id = some e) : e ∈ s.ws ∧ e.f = f ∧ e.id = id := by
  have h1 := List.mem_of_find?_eq_some h
  have h2 := List.find?_some h
  simp only [decide_eq_true_eq] at h2
  exact ⟨h1, h2⟩

theorem findW_none {s : St} {f : Nat} {id : Int} (h : findW s f id = none) : ∀ e ∈ s.ws, ¬ (e.f = f ∧ e.id = id) := by
  intro e he hc
  have := List.find?_eq_none.1 h e he
  simp [hc.1, hc.2] at this

theorem pairwise_unique {α : Type} {R : α → α → Prop} {l : List α} (h : l.Pairwise fun a b => ¬ R a b) (hs : ∀ a b, R a b → R b a)
    {a b : α} (ha : a ∈ l) (hb : b ∈ l) (hr : R a b) : a = b := by
  induction h with
  | nil => cases ha
  | cons hx _ ih =>
    rcases List.mem_cons.1 ha with rfl | ha'
    · rcases List.mem_cons.1 hb with rfl | hb'
      · rfl
      · exact absurd hr (hx _ hb')
    · rcases List.mem_cons.1 hb with rfl | hb'
      · exact absurd (hs _ _ hr) (hx _ ha')
      · exact ih ha' hb'

theorem Inv.rUnique {s : St} (hi : Inv s) {a b : RE} (ha : a ∈ s.rs) (hb : b ∈ s.rs) (h : a.f = b.f ∧ a.id = b.id) : a = b :=
  pairwise_unique (R := fun a b => a.f = b.f ∧ a.id = b.id) hi.rKey (fun _ _ h => ⟨h.1.symm, h.2.symm⟩) ha hb h

theorem Inv.wUnique {s : St} (hi : Inv s) {a b : WE} (ha : a ∈ s.ws) (hb : b ∈ s.ws) (h : a.f = b.f ∧ a.id = b.id) : a = b :=
  pairwise_unique (R := fun a b => a.f = b.f ∧ a.id = b.id) hi.wKey (fun _ _ h => ⟨h.1.symm, h.2.symm⟩) ha hb h

/-- Different writers have different queues. -/
theorem Inv.wInj {s : St} (hi : Inv s) {a b : WE} (ha : a ∈ s.ws) (hb : b ∈ s.ws) (h : a.q = b.q) : a = b := by
  obtain ⟨c, hc⟩ := hi.wCell a ha
  obtain ⟨d, hd⟩ := hi.wCell b hb
  rw [h, hd] at hc
  injection hc with _ h1 h2
  exact hi.wUnique ha hb ⟨h1.symm, h2.symm⟩

theorem findR_of_mem {s : St} (hi : Inv s) {e : RE} (he : e ∈ s.rs) : findR s e.f e.id = some e := by
  cases h : findR s e.f e.id with
  | none => exact absurd ⟨rfl, rfl⟩ (findR_none h e he)
  | some x =>
    obtain ⟨h1, h2, h3⟩ := findR_some h
    rw [hi.rUnique h1 he ⟨h2, h3⟩]

theorem findW_of_mem {s : St} (hi : Inv s) {e : WE} (he : e ∈ s.ws) : findW s e.f e.id = some e := by
  cases h : findW s e.f e.id with
  | none => exact absurd ⟨rfl, rfl⟩ (findW_none h e he)
  | some x =>
    obtain ⟨h1, h2, h3⟩ := findW_some h
    rw [hi.wUnique h1 he ⟨h2, h3⟩]

/-- The answer to "is it connected" is defined and means that both ends are there. -/
theorem rConnected_ok {s : St} (hi : Inv s) {o : Nat} (ho : held s o) :
    ∃ b, rConnected s o = .ok b ∧ (b = true ↔ ∃ q, (s.rdr o).queue = some q ∧ hasW s q) := by
  unfold rConnected
  cases hq : (s.rdr o).queue with
  | none => exact ⟨false, rfl, by simp⟩
  | some q =>
    obtain ⟨c, f, w, hc⟩ := hi.rCell o ho q hq
    refine ⟨c, by simp [qConnected, hc], ⟨fun h => ⟨q, rfl, ?_⟩, fun ⟨q', h', hw⟩ => ?_⟩⟩
    · rw [h] at hc; exact (hi.conn q f w hc).1
    · cases h'
      obtain ⟨f', w', h2⟩ := hi.both q hw ⟨o, ho, hq⟩
      rw [hc] at h2; cases h2; rfl

theorem qConnected_ok {s : St} (hi : Inv s) {e : WE} (he : e ∈ s.ws) :
    ∃ b, qConnected s e.q = .ok b ∧ (b = true ↔ hasR s e.q) := by
  obtain ⟨c, hc⟩ := hi.wCell e he
  refine ⟨c, by simp [qConnected, hc], ⟨fun h => ?_, fun h => ?_⟩⟩
  · rw [h] at hc; exact (hi.conn _ _ _ hc).2
  · obtain ⟨f', w', h2⟩ := hi.both e.q ⟨e, he, rfl⟩ h
    rw [hc] at h2; cases h2; rfl

/-! ## The reader lets go -/

/-- The state after reader `o` let go of queue `q`. -/
def readerGone (s : St) (o q : Nat) (c : Cell) : St :=
  { s with cell := upd s.cell q c, rdr := upd s.rdr o { s.rdr o with queue := none } }

theorem readerGone_inv {s : St} (hi : Inv s) {o q : Nat} {c : Cell} (ho : held s o) (hq : (s.rdr o).queue = some q)
    (hc : (∃ f w, s.cell q = .live true f w ∧ c = .live false f w) ∨ ((∃ f w, s.cell q = .live false f w) ∧ c = .freed)) :
    Inv (readerGone s o q c) := by
  have hW : ∀ x, hasW (readerGone s o q c) x ↔ hasW s x := fun x => Iff.rfl
  have hH : ∀ x, held (readerGone s o q c) x ↔ held s x := fun x => Iff.rfl
  have hqs : ∀ x y, ((readerGone s o q c).rdr x).queue = some y ↔ (x ≠ o ∧ (s.rdr x).queue = some y) := by
    intro x y
    by_cases hx : x = o
    · subst hx
      simp [readerGone, upd_same]
    · simp [readerGone, upd_other _ _ hx, hx]
  have hR : ∀ x, hasR (readerGone s o q c) x ↔ (hasR s x ∧ x ≠ q) := by
    intro x
    constructor
    · rintro ⟨p, hp, hpq⟩
      obtain ⟨h1, h2⟩ := (hqs p x).1 hpq
      refine ⟨⟨p, hp, h2⟩, ?_⟩
      rintro rfl
      exact h1 (hi.rInj p o _ hp ho h2 hq)
    · rintro ⟨⟨p, hp, hpq⟩, hne⟩
      refine ⟨p, hp, (hqs p x).2 ⟨?_, hpq⟩⟩
      rintro rfl
      rw [hq] at hpq; cases hpq; exact hne rfl
  have hcq : (readerGone s o q c).cell q = c := upd_same _ _ _
  have hco : ∀ x, x ≠ q → (readerGone s o q c).cell x = s.cell x := fun x hx => upd_other _ _ hx
  refine ⟨hi.wKey, hi.rKey, ?_, ?_, ?_, ?_, ?_, ?_, ?_, hi.old, hi.limW, ?_, hi.freshR⟩
  · intro e he
    have he' : e ∈ s.ws := he
    by_cases hx : e.q = q
    · rcases hc with ⟨f, w, h1, h2⟩ | ⟨⟨f, w, h1⟩, h2⟩
      · obtain ⟨d, hd⟩ := hi.wCell e he'
        rw [hx, h1] at hd; cases hd
        exact ⟨false, by rw [hx, hcq, h2]⟩
      · obtain ⟨f', w', h3⟩ := hi.both q ⟨e, he', hx⟩ ⟨o, ho, hq⟩
        rw [h1] at h3; cases h3
    · obtain ⟨d, hd⟩ := hi.wCell e he'
      exact ⟨d, by rw [hco _ hx]; exact hd⟩
  · intro p hp x hpx
    obtain ⟨h1, h2⟩ := (hqs p x).1 hpx
    have hx : x ≠ q := by rintro rfl; exact h1 (hi.rInj p o _ hp ho h2 hq)
    rw [hco _ hx]; exact hi.rCell p hp x h2
  · intro p p' x hp hp' h1 h2
    exact hi.rInj p p' x hp hp' ((hqs p x).1 h1).2 ((hqs p' x).1 h2).2
  · intro x f w hx
    by_cases hxq : x = q
    · rw [hxq, hcq] at hx
      rcases hc with ⟨f', w', _, h2⟩ | ⟨_, h2⟩ <;> rw [h2] at hx <;> cases hx
    · rw [hco _ hxq] at hx
      obtain ⟨h1, h2⟩ := hi.conn x f w hx
      exact ⟨h1, (hR x).2 ⟨h2, hxq⟩⟩
  · intro x hw hr
    obtain ⟨h1, h2⟩ := (hR x).1 hr
    rw [hco _ h2]; exact hi.both x hw h1
  · intro x d f w hx
    by_cases hxq : x = q
    · rw [hxq, hcq] at hx
      rcases hc with ⟨f', w', h1, h2⟩ | ⟨_, h2⟩
      · rw [hxq]; exact .inl (hi.conn q f' w' h1).1
      · rw [h2] at hx; cases hx
    · rw [hco _ hxq] at hx
      rcases hi.live x d f w hx with h | h | h
      · exact .inl h
      · exact .inr (.inl ((hR x).2 ⟨h, hxq⟩))
      · exact .inr (.inr h)
  · intro x hx
    obtain ⟨h1, h2⟩ := hi.lost x hx
    exact ⟨h1, fun h => h2 ((hR x).1 h).1⟩
  · intro x hx
    have hne : x ≠ q := by
      rintro rfl
      have := hi.freshQ x hx
      rcases hc with ⟨f, w, h1, _⟩ | ⟨⟨f, w, h1⟩, _⟩ <;> rw [h1] at this <;> cases this
    rw [hco _ hne]; exact hi.freshQ x hx

theorem disconnectQueue_ok {s : St} (hi : Inv s) {o : Nat} (ho : held s o) :
    ∃ t b, disconnectQueue s o = .ok (t, b) ∧ Inv t ∧ t.rs = s.rs ∧ t.ws = s.ws ∧ (t.rdr o).queue = none ∧
      (∀ p, p ≠ o → t.rdr p = s.rdr p) ∧ (b = true ↔ (s.rdr o).queue ≠ none) ∧ (t.rdr o).filters = (s.rdr o).filters ∧
      t.lost = s.lost ∧ t.maxR = s.maxR ∧ t.maxW = s.maxW ∧ t.nextQ = s.nextQ ∧ t.nextR = s.nextR := by
  unfold disconnectQueue
  cases hq : (s.rdr o).queue with
  | none => exact ⟨s, false, rfl, hi, rfl, rfl, hq, fun _ _ => rfl, by simp, rfl, rfl, rfl, rfl, rfl, rfl⟩
  | some q =>
    obtain ⟨c, f, w, hc⟩ := hi.rCell o ho q hq
    have mk : ∀ c', ((∃ f w, s.cell q = .live true f w ∧ c' = .live false f w) ∨ ((∃ f w, s.cell q = .live false f w) ∧ c' = .freed)) →
        letGo s q = .ok { s with cell := upd s.cell q c' } →
        ∃ t b, (letGo s q).map (fun s' => ({ s' with rdr := upd s'.rdr o { s'.rdr o with queue := none } }, true)) = .ok (t, b) ∧
          Inv t ∧ t.rs = s.rs ∧ t.ws = s.ws ∧ (t.rdr o).queue = none ∧
          (∀ p, p ≠ o → t.rdr p = s.rdr p) ∧ (b = true ↔ some q ≠ none) ∧ (t.rdr o).filters = (s.rdr o).filters ∧
          t.lost = s.lost ∧ t.maxR = s.maxR ∧ t.maxW = s.maxW ∧ t.nextQ = s.nextQ ∧ t.nextR = s.nextR := by
      intro c' h1 h2
      refine ⟨readerGone s o q c', true, by rw [h2]; rfl, readerGone_inv hi ho hq h1, rfl, rfl, ?_, ?_, by simp, ?_, rfl, rfl, rfl, rfl, rfl⟩
      · simp [readerGone, upd_same]
      · intro p hp; simp [readerGone, upd_other _ _ hp]
      · simp [readerGone, upd_same]
    cases c with
    | true => exact mk (.live false f w) (.inl ⟨f, w, hc, rfl⟩) (by simp [letGo, hc])
    | false => exact mk .freed (.inr ⟨⟨f, w, hc⟩, rfl⟩) (by simp [letGo, hc])

/-! ## Registration with a reader does not matter -/

theorem filters_inv {s : St} (hi : Inv s) (o : Nat) (fs : List Nat) :
    Inv { s with rdr := upd s.rdr o { s.rdr o with filters := fs } } := by
  have hqs : ∀ x, (upd s.rdr o { s.rdr o with filters := fs } x).queue = (s.rdr x).queue := by
    intro x
    by_cases hx : x = o
    · subst hx; rw [upd_same]
    · rw [upd_other _ _ hx]
  have hR : ∀ x, hasR { s with rdr := upd s.rdr o { s.rdr o with filters := fs } } x ↔ hasR s x := by
    intro x
    constructor
    · rintro ⟨p, hp, h⟩; exact ⟨p, hp, by rw [← hqs]; exact h⟩
    · rintro ⟨p, hp, h⟩; exact ⟨p, hp, by show (upd s.rdr o { s.rdr o with filters := fs } p).queue = _; rw [hqs]; exact h⟩
  refine ⟨hi.wKey, hi.rKey, hi.wCell, ?_, ?_, ?_, ?_, ?_, ?_, hi.old, hi.limW, hi.freshQ, hi.freshR⟩
  · intro p hp q h; exact hi.rCell p hp q (by rw [← hqs]; exact h)
  · intro p p' q hp hp' h1 h2; exact hi.rInj p p' q hp hp' (by rw [← hqs]; exact h1) (by rw [← hqs]; exact h2)
  · intro q f w h; obtain ⟨h1, h2⟩ := hi.conn q f w h; exact ⟨h1, (hR q).2 h2⟩
  · intro q h1 h2; exact hi.both q h1 ((hR q).1 h2)
  · intro q c f w h
    rcases hi.live q c f w h with h | h | h
    · exact .inl h
    · exact .inr (.inl ((hR q).2 h))
    · exact .inr (.inr h)
  · intro q h; obtain ⟨h1, h2⟩ := hi.lost q h; exact ⟨h1, fun h => h2 ((hR q).1 h)⟩

theorem rDisconnect_ok {s : St} (hi : Inv s) {o : Nat} (ho : held s o) (f : Nat) :
    ∃ t b, rDisconnect s o f = .ok (t, b) ∧ Inv t ∧ t.rs = s.rs ∧ t.ws = s.ws ∧ (∀ p, p ≠ o → t.rdr p = s.rdr p) ∧
      t.lost = s.lost ∧ t.maxR = s.maxR ∧ t.maxW = s.maxW ∧ t.nextQ = s.nextQ ∧ t.nextR = s.nextR ∧
      (f ∉ (s.rdr o).filters → t = s ∧ b = false) ∧
      (f ∈ (s.rdr o).filters → (t.rdr o).filters = (s.rdr o).filters.filter (· ≠ f) ∧
        ((t.rdr o).filters ≠ [] → (t.rdr o).queue = (s.rdr o).queue ∧ b = true) ∧
        ((t.rdr o).filters = [] → (t.rdr o).queue = none ∧ (b = true ↔ (s.rdr o).queue ≠ none))) := by
  unfold rDisconnect
  by_cases hf : f ∈ (s.rdr o).filters
  · rw [if_pos hf]
    obtain ⟨fs, hfs⟩ : ∃ fs, fs = (s.rdr o).filters.filter (· ≠ f) := ⟨_, rfl⟩
    rw [← hfs]
    have hi1 := filters_inv hi o fs
    have hfil : (upd s.rdr o { s.rdr o with filters := fs } o).filters = fs := by rw [upd_same]
    have hqu : (upd s.rdr o { s.rdr o with filters := fs } o).queue = (s.rdr o).queue := by rw [upd_same]
    simp only
    by_cases hne : fs ≠ []
    · rw [if_pos (by rw [hfil]; exact hne)]
      refine ⟨_, true, rfl, hi1, rfl, rfl, fun p hp => upd_other _ _ hp, rfl, rfl, rfl, rfl, rfl, fun h => absurd hf h, fun _ => ?_⟩
      exact ⟨by simp only [upd_same], fun _ => ⟨hqu, rfl⟩, fun h => absurd (by rw [← hfil]; exact h) hne⟩
    · rw [if_neg (by rw [hfil]; exact hne)]
      have hnil : fs = [] := by simpa using hne
      obtain ⟨t, b, h1, h2, h3, h4, h5, h6, h7, h8, h9, h10, h11, h12, h13⟩ := disconnectQueue_ok hi1 (o := o) ho
      refine ⟨t, b, h1, h2, h3, h4, ?_, h9, h10, h11, h12, h13, fun h => absurd hf h, fun _ => ⟨?_, ?_, ?_⟩⟩
      · intro p hp; rw [h6 p hp]; exact upd_other _ _ hp
      · rw [h8]; exact hfil
      · intro h; rw [h8] at h; exact absurd (hfil.trans hnil) h
      · intro _
        refine ⟨h5, h7.trans ?_⟩
        show (upd s.rdr o _ o).queue ≠ none ↔ _
        rw [hqu]
  · rw [if_neg hf]
    exact ⟨s, false, rfl, hi, rfl, rfl, fun _ _ => rfl, rfl, rfl, rfl, rfl, rfl, fun _ => ⟨rfl, rfl⟩, fun h => absurd h hf⟩

/-! ## An entry leaves -/

theorem eraseR_inv {s : St} (hi : Inv s) {f : Nat} {id : Int}
    (h : ∀ e ∈ s.rs, e.f = f ∧ e.id = id → ∀ o, e.obj = some o → held (eraseR s f id) o ∨ (s.rdr o).queue = none) :
    Inv (eraseR s f id) := by
  have hmem : ∀ e, e ∈ (eraseR s f id).rs ↔ e ∈ s.rs ∧ ¬ (e.f = f ∧ e.id = id) := by
    intro e; simp only [eraseR, List.mem_filter, decide_eq_true_eq]
  have hH : ∀ o, held (eraseR s f id) o → held s o := by
    rintro o ⟨e, he, ho⟩; exact ⟨e, ((hmem e).1 he).1, ho⟩
  have hR : ∀ q, hasR (eraseR s f id) q ↔ hasR s q := by
    intro q
    constructor
    · rintro ⟨o, ho, hq⟩; exact ⟨o, hH o ho, hq⟩
    · rintro ⟨o, ⟨e, he, heo⟩, hq⟩
      by_cases hk : e.f = f ∧ e.id = id
      · rcases h e he hk o heo with h1 | h1
        · exact ⟨o, h1, hq⟩
        · rw [h1] at hq; cases hq
      · exact ⟨o, ⟨e, (hmem e).2 ⟨he, hk⟩, heo⟩, hq⟩
  refine ⟨hi.wKey, hi.rKey.filter _, hi.wCell, ?_, ?_, ?_, ?_, ?_, ?_, hi.old, hi.limW, hi.freshQ, fun o ho => hi.freshR o (hH o ho)⟩
  · intro o ho q hq; exact hi.rCell o (hH o ho) q hq
  · intro o p q ho hp h1 h2; exact hi.rInj o p q (hH o ho) (hH p hp) h1 h2
  · intro q g w hq; obtain ⟨h1, h2⟩ := hi.conn q g w hq; exact ⟨h1, (hR q).2 h2⟩
  · intro q h1 h2; exact hi.both q h1 ((hR q).1 h2)
  · intro q c g w hq
    rcases hi.live q c g w hq with h | h | h
    · exact .inl h
    · exact .inr (.inl ((hR q).2 h))
    · exact .inr (.inr h)
  · intro q hq; obtain ⟨h1, h2⟩ := hi.lost q hq; exact ⟨h1, fun h => h2 ((hR q).1 h)⟩

theorem heldElsewhere_iff (s : St) (o f : Nat) (id : Int) : heldElsewhere s o f id = true ↔ held (eraseR s f id) o := by
  simp [heldElsewhere, held]

theorem dropR_ok {s : St} (hi : Inv s) {o f : Nat} {id : Int} (he : (⟨f, id, some o⟩ : RE) ∈ s.rs) :
    ∃ t, dropR s o f id = .ok t ∧ Inv t ∧ t.rs = (eraseR s f id).rs ∧ t.ws = s.ws ∧ (∀ p, p ≠ o → t.rdr p = s.rdr p) ∧
      t.lost = s.lost ∧ t.maxR = s.maxR ∧ t.maxW = s.maxW ∧ t.nextQ = s.nextQ ∧ t.nextR = s.nextR ∧
      (held (eraseR s f id) o → t.rdr = s.rdr) ∧ ((t.rdr o).queue = (s.rdr o).queue ∨ (t.rdr o).queue = none) := by
  have ho : held s o := ⟨_, he, rfl⟩
  have hobj : ∀ e ∈ s.rs, e.f = f ∧ e.id = id → e.obj = some o := by
    intro e h1 h2
    rw [hi.rUnique h1 he h2]
  unfold dropR
  by_cases hh : heldElsewhere s o f id = true
  · rw [if_pos hh]
    refine ⟨_, rfl, eraseR_inv hi ?_, rfl, rfl, fun _ _ => rfl, rfl, rfl, rfl, rfl, rfl, fun _ => rfl, .inl rfl⟩
    intro e h1 h2 p hp
    rw [hobj e h1 h2] at hp; cases hp
    exact .inl ((heldElsewhere_iff s o f id).1 hh)
  · rw [if_neg hh]
    obtain ⟨t, b, h1, h2, h3, h4, h5, h6, _, _, h9, h10, h11, h12, h13⟩ := disconnectQueue_ok hi ho
    refine ⟨eraseR t f id, by rw [h1]; rfl, eraseR_inv h2 ?_, ?_, h4, h6, h9, h10, h11, h12, h13,
      fun h => absurd ((heldElsewhere_iff s o f id).2 h) hh, .inr h5⟩
    · intro e h14 h15 p hp
      rw [h3] at h14
      rw [hobj e h14 h15] at hp; cases hp
      exact .inr h5
    · show t.rs.filter _ = s.rs.filter _
      rw [h3]

theorem deleteReader_ok {s : St} (hi : Inv s) {o f : Nat} {id : Int} (he : (⟨f, id, some o⟩ : RE) ∈ s.rs) (d : Bool) :
    ∃ t, deleteReader s f id d = .ok (t, d) ∧ Inv t ∧ t.rs = (eraseR s f id).rs ∧ t.ws = s.ws ∧ (∀ p, p ≠ o → t.rdr p = s.rdr p) ∧
      t.lost = s.lost ∧ t.maxR = s.maxR ∧ t.maxW = s.maxW ∧ t.nextQ = s.nextQ ∧ t.nextR = s.nextR ∧
      ((t.rdr o).queue = (s.rdr o).queue ∨ (t.rdr o).queue = none) ∧
      (held (eraseR s f id) o → ∃ t1 b, rDisconnect s o f = .ok (t1, b) ∧ t.rdr = t1.rdr) := by
  have hfind := findR_of_mem hi he
  simp only at hfind
  unfold deleteReader
  rw [hfind]
  simp only
  obtain ⟨t1, b1, e1, hi1, r1, w1, q1, l1, m1, n1, k1, j1, x1, y1⟩ := rDisconnect_ok hi (o := o) ⟨_, he, rfl⟩ f
  rw [e1]
  simp only [Outcome.bind_ok]
  obtain ⟨t2, e2, hi2, r2, w2, q2, l2, m2, n2, k2, j2, x2, y2⟩ := dropR_ok hi1 (o := o) (f := f) (id := id) (by rw [r1]; exact he)
  rw [e2]
  refine ⟨t2, rfl, hi2, ?_, w2.trans w1, fun p hp => (q2 p hp).trans (q1 p hp), l2.trans l1, m2.trans m1, n2.trans n1, k2.trans k1, j2.trans j1, ?_, ?_⟩
  · rw [r2]; show t1.rs.filter _ = s.rs.filter _; rw [r1]
  · rcases y2 with y2 | y2
    · rw [y2]
      by_cases hf : f ∈ (s.rdr o).filters
      · obtain ⟨_, a, b⟩ := y1 hf
        by_cases hn : (t1.rdr o).filters = []
        · exact .inr (b hn).1
        · exact .inl (a hn).1
      · exact .inl (by rw [(x1 hf).1])
    · exact .inr y2
  · intro hh
    refine ⟨t1, b1, rfl, x2 ?_⟩
    obtain ⟨e, h1, h2⟩ := hh
    refine ⟨e, ?_, h2⟩
    show e ∈ t1.rs.filter _
    rw [r1]; exact h1

/-! ## The writer lets go -/

theorem writerGone_inv {s : St} (hi : Inv s) {e : WE} (he : e ∈ s.ws) {c : Cell}
    (hc : (∃ f w, s.cell e.q = .live true f w ∧ c = .live false f w) ∨ ((∃ f w, s.cell e.q = .live false f w) ∧ c = .freed)) :
    Inv { s with cell := upd s.cell e.q c, ws := s.ws.filter fun x => ¬ (x.f = e.f ∧ x.id = e.id) } := by
  obtain ⟨t, ht⟩ : ∃ t, t = { s with cell := upd s.cell e.q c, ws := s.ws.filter fun x => ¬ (x.f = e.f ∧ x.id = e.id) } := ⟨_, rfl⟩
  rw [← ht]
  have hws : ∀ x, x ∈ t.ws ↔ x ∈ s.ws ∧ ¬ (x.f = e.f ∧ x.id = e.id) := by intro x; rw [ht]; simp only [List.mem_filter, decide_eq_true_eq]
  have hW : ∀ q, hasW t q ↔ hasW s q ∧ q ≠ e.q := by
    intro q
    constructor
    · rintro ⟨x, hx, rfl⟩
      obtain ⟨h1, h2⟩ := (hws x).1 hx
      refine ⟨⟨x, h1, rfl⟩, fun h => ?_⟩
      rw [hi.wInj h1 he h] at h2
      exact h2 ⟨rfl, rfl⟩
    · rintro ⟨⟨x, hx, rfl⟩, hne⟩
      refine ⟨x, (hws x).2 ⟨hx, fun h => ?_⟩, rfl⟩
      rw [hi.wUnique hx he h] at hne
      exact hne rfl
  have hR : ∀ q, hasR t q ↔ hasR s q := by intro q; rw [ht]; exact Iff.rfl
  have hcq : t.cell e.q = c := by rw [ht]; exact upd_same _ _ _
  have hco : ∀ q, q ≠ e.q → t.cell q = s.cell q := by intro q hq; rw [ht]; exact upd_other _ _ hq
  have hnoR : (∃ f w, s.cell e.q = .live false f w) → ¬ hasR s e.q := by
    rintro ⟨f, w, h1⟩ h
    obtain ⟨f', w', h2⟩ := hi.both e.q ⟨e, he, rfl⟩ h
    rw [h1] at h2; cases h2
  have hrd : t.rdr = s.rdr := by rw [ht]
  have hrs : t.rs = s.rs := by rw [ht]
  have hH : ∀ o, held t o ↔ held s o := by intro o; unfold held; rw [hrs]
  refine ⟨?_, by rw [hrs]; exact hi.rKey, ?_, ?_, ?_, ?_, ?_, ?_, ?_, by rw [ht]; exact hi.old, ?_, ?_, ?_⟩
  · rw [ht]; exact hi.wKey.filter _
  · intro x hx
    have hq : x.q ≠ e.q := ((hW x.q).1 ⟨x, hx, rfl⟩).2
    rw [hco _ hq]; exact hi.wCell x ((hws x).1 hx).1
  · intro o ho q hq
    rw [hH] at ho; rw [hrd] at hq
    by_cases hx : q = e.q
    · subst hx
      rcases hc with ⟨f, w, _, h2⟩ | ⟨h1, _⟩
      · exact ⟨false, f, w, by rw [hcq, h2]⟩
      · exact absurd ⟨o, ho, hq⟩ (hnoR h1)
    · rw [hco _ hx]; exact hi.rCell o ho q hq
  · intro o p q ho hp h1 h2
    rw [hH] at ho hp; rw [hrd] at h1 h2
    exact hi.rInj o p q ho hp h1 h2
  · intro q f w hq
    by_cases hx : q = e.q
    · rw [hx, hcq] at hq
      rcases hc with ⟨f', w', _, h2⟩ | ⟨_, h2⟩ <;> rw [h2] at hq <;> cases hq
    · rw [hco _ hx] at hq
      obtain ⟨h1, h2⟩ := hi.conn q f w hq
      exact ⟨(hW q).2 ⟨h1, hx⟩, (hR q).2 h2⟩
  · intro q h1 h2
    obtain ⟨h3, h4⟩ := (hW q).1 h1
    rw [hco _ h4]; exact hi.both q h3 ((hR q).1 h2)
  · intro q d f w hq
    by_cases hx : q = e.q
    · rw [hx, hcq] at hq
      rcases hc with ⟨f', w', h1, _⟩ | ⟨_, h2⟩
      · rw [hx]; exact .inr (.inl ((hR e.q).2 (hi.conn e.q f' w' h1).2))
      · rw [h2] at hq; cases hq
    · rw [hco _ hx] at hq
      rcases hi.live q d f w hq with h | h | h
      · exact .inl ((hW q).2 ⟨h, hx⟩)
      · exact .inr (.inl ((hR q).2 h))
      · exact .inr (.inr (by rw [ht]; exact h))
  · intro q hq
    have hq' : q ∈ s.lost := by rw [ht] at hq; exact hq
    obtain ⟨h1, h2⟩ := hi.lost q hq'
    exact ⟨fun h => h1 ((hW q).1 h).1, fun h => h2 ((hR q).1 h)⟩
  · intro f
    have h1 := hi.limW f
    have h2 : sizeW t f ≤ sizeW s f := by
      unfold sizeW
      rw [ht]
      exact (List.filter_sublist.filter _).length_le
    have : t.maxW = s.maxW := by rw [ht]
    rw [this]; omega
  · intro q hq
    have hq' : s.nextQ ≤ q := by rw [ht] at hq; exact hq
    have hx : q ≠ e.q := by
      rintro rfl
      obtain ⟨d, hd⟩ := hi.wCell e he
      rw [hi.freshQ _ hq'] at hd; cases hd
    rw [hco _ hx]; exact hi.freshQ q hq'
  · intro o ho
    rw [hH] at ho
    have : t.nextR = s.nextR := by rw [ht]
    rw [this]; exact hi.freshR o ho

theorem dropW_ok {s : St} (hi : Inv s) {e : WE} (he : e ∈ s.ws) :
    ∃ t, dropW s e = .ok t ∧ Inv t ∧ t.ws = s.ws.filter (fun x => ¬ (x.f = e.f ∧ x.id = e.id)) ∧ t.rs = s.rs ∧ t.rdr = s.rdr ∧
      t.lost = s.lost ∧ t.maxR = s.maxR ∧ t.maxW = s.maxW ∧ t.nextQ = s.nextQ ∧ t.nextR = s.nextR := by
  obtain ⟨c, hc⟩ := hi.wCell e he
  unfold dropW
  cases c with
  | true =>
    refine ⟨_, by simp [letGo, hc], writerGone_inv hi he (c := .live false e.f e.id) (.inl ⟨_, _, hc, rfl⟩), rfl, rfl, rfl, rfl, rfl, rfl, rfl, rfl⟩
  | false =>
    refine ⟨_, by simp [letGo, hc], writerGone_inv hi he (c := .freed) (.inr ⟨⟨_, _, hc⟩, rfl⟩), rfl, rfl, rfl, rfl, rfl, rfl, rfl, rfl⟩

/-! ## New entries -/

theorem findR_isSome_false {s : St} {f : Nat} {id : Int} (h : ¬ (findR s f id).isSome = true) : findR s f id = none := by
  cases h' : findR s f id with
  | none => rfl
  | some x => rw [h'] at h; exact absurd rfl h

theorem findW_isSome_false {s : St} {f : Nat} {id : Int} (h : ¬ (findW s f id).isSome = true) : findW s f id = none := by
  cases h' : findW s f id with
  | none => rfl
  | some x => rw [h'] at h; exact absurd rfl h

/-- A queue is made and lost. -/
theorem lose_inv {s : St} (hi : Inv s) (f : Nat) (w : Int) :
    Inv { s with nextQ := s.nextQ + 1, cell := upd s.cell s.nextQ (.live false f w), lost := s.nextQ :: s.lost } := by
  have hn : s.cell s.nextQ = .none := hi.freshQ _ (Nat.le_refl _)
  have hW : ¬ hasW s s.nextQ := by
    rintro ⟨e, he, hq⟩
    obtain ⟨c, hc⟩ := hi.wCell e he
    rw [hq, hn] at hc; cases hc
  have hR : ¬ hasR s s.nextQ := by
    rintro ⟨o, ho, hq⟩
    obtain ⟨c, f', w', hc⟩ := hi.rCell o ho _ hq
    rw [hn] at hc; cases hc
  have hco : ∀ q, q ≠ s.nextQ → upd s.cell s.nextQ (.live false f w) q = s.cell q := fun q hq => upd_other _ _ hq
  refine ⟨hi.wKey, hi.rKey, ?_, ?_, hi.rInj, ?_, ?_, ?_, ?_, ?_, hi.limW, ?_, hi.freshR⟩
  · intro e he
    have : e.q ≠ s.nextQ := fun h => hW ⟨e, he, h⟩
    show ∃ c, upd s.cell s.nextQ _ e.q = _
    rw [hco _ this]; exact hi.wCell e he
  · intro o ho q hq
    have : q ≠ s.nextQ := by rintro rfl; exact hR ⟨o, ho, hq⟩
    show ∃ c f' w', upd s.cell s.nextQ _ q = _
    rw [hco _ this]; exact hi.rCell o ho q hq
  · intro q f' w' hq
    have hq' : upd s.cell s.nextQ (.live false f w) q = .live true f' w' := hq
    by_cases hx : q = s.nextQ
    · rw [hx, upd_same] at hq'; cases hq'
    · rw [hco _ hx] at hq'; exact hi.conn q f' w' hq'
  · intro q h1 h2
    have : q ≠ s.nextQ := by rintro rfl; exact hW h1
    show ∃ f' w', upd s.cell s.nextQ _ q = _
    rw [hco _ this]; exact hi.both q h1 h2
  · intro q c f' w' hq
    have hq' : upd s.cell s.nextQ (.live false f w) q = .live c f' w' := hq
    by_cases hx : q = s.nextQ
    · exact .inr (.inr (by rw [hx]; exact List.mem_cons_self))
    · rw [hco _ hx] at hq'
      rcases hi.live q c f' w' hq' with h | h | h
      · exact .inl h
      · exact .inr (.inl h)
      · exact .inr (.inr (List.mem_cons_of_mem _ h))
  · intro q hq
    rcases List.mem_cons.1 hq with rfl | hq
    · exact ⟨hW, hR⟩
    · exact hi.lost q hq
  · intro q hq
    show q < s.nextQ + 1
    rcases List.mem_cons.1 hq with rfl | hq
    · omega
    · have := hi.old q hq; omega
  · intro q hq
    have hq' : s.nextQ + 1 ≤ q := hq
    show upd s.cell s.nextQ _ q = _
    rw [hco _ (by omega)]; exact hi.freshQ q (by omega)

/-- A null entry is made. -/
theorem nullEntry_inv {s : St} (hi : Inv s) {f : Nat} {id : Int} (hn : findR s f id = none) :
    Inv { s with rs := s.rs ++ [⟨f, id, none⟩] } := by
  have hH : ∀ o, held { s with rs := s.rs ++ [⟨f, id, none⟩] } o ↔ held s o := by
    intro o
    constructor
    · rintro ⟨e, he, ho⟩
      rcases List.mem_append.1 he with h | h
      · exact ⟨e, h, ho⟩
      · rw [List.mem_singleton] at h; rw [h] at ho; cases ho
    · rintro ⟨e, he, ho⟩; exact ⟨e, List.mem_append.2 (.inl he), ho⟩
  have hR : ∀ q, hasR { s with rs := s.rs ++ [⟨f, id, none⟩] } q ↔ hasR s q := by
    intro q
    constructor
    · rintro ⟨o, ho, hq⟩; exact ⟨o, (hH o).1 ho, hq⟩
    · rintro ⟨o, ho, hq⟩; exact ⟨o, (hH o).2 ho, hq⟩
  refine ⟨hi.wKey, ?_, hi.wCell, fun o ho => hi.rCell o ((hH o).1 ho), fun o p q ho hp => hi.rInj o p q ((hH o).1 ho) ((hH p).1 hp), ?_, ?_, ?_, ?_, hi.old, hi.limW, hi.freshQ, fun o ho => hi.freshR o ((hH o).1 ho)⟩
  · refine List.pairwise_append.2 ⟨hi.rKey, List.pairwise_singleton _ _, ?_⟩
    intro a ha b hb hab
    rw [List.mem_singleton] at hb; subst hb
    exact findR_none hn a ha hab
  · intro q f' w hq; obtain ⟨h1, h2⟩ := hi.conn q f' w hq; exact ⟨h1, (hR q).2 h2⟩
  · intro q h1 h2; exact hi.both q h1 ((hR q).1 h2)
  · intro q c f' w hq
    rcases hi.live q c f' w hq with h | h | h
    · exact .inl h
    · exact .inr (.inl ((hR q).2 h))
    · exact .inr (.inr h)
  · intro q hq; obtain ⟨h1, h2⟩ := hi.lost q hq; exact ⟨h1, fun h => h2 ((hR q).1 h)⟩

/-- An entry for a reader already held is made. -/
theorem shareEntry_inv {s : St} (hi : Inv s) {f o : Nat} {id : Int} (hn : ∀ e ∈ s.rs, ¬ (e.f = f ∧ e.id = id)) (ho : held s o) :
    Inv { s with rs := s.rs ++ [⟨f, id, some o⟩] } := by
  have hH : ∀ p, held { s with rs := s.rs ++ [⟨f, id, some o⟩] } p ↔ held s p := by
    intro p
    constructor
    · rintro ⟨e, he, hp⟩
      rcases List.mem_append.1 he with h | h
      · exact ⟨e, h, hp⟩
      · rw [List.mem_singleton] at h; rw [h] at hp; cases hp; exact ho
    · rintro ⟨e, he, hp⟩; exact ⟨e, List.mem_append.2 (.inl he), hp⟩
  have hR : ∀ q, hasR { s with rs := s.rs ++ [⟨f, id, some o⟩] } q ↔ hasR s q := by
    intro q
    constructor
    · rintro ⟨p, hp, hq⟩; exact ⟨p, (hH p).1 hp, hq⟩
    · rintro ⟨p, hp, hq⟩; exact ⟨p, (hH p).2 hp, hq⟩
  refine ⟨hi.wKey, ?_, hi.wCell, fun o ho => hi.rCell o ((hH o).1 ho), fun o p q ho hp => hi.rInj o p q ((hH o).1 ho) ((hH p).1 hp), ?_, ?_, ?_, ?_, hi.old, hi.limW, hi.freshQ, fun o ho => hi.freshR o ((hH o).1 ho)⟩
  · refine List.pairwise_append.2 ⟨hi.rKey, List.pairwise_singleton _ _, ?_⟩
    intro a ha b hb hab
    rw [List.mem_singleton] at hb; subst hb
    exact hn a ha hab
  · intro q f' w hq; obtain ⟨h1, h2⟩ := hi.conn q f' w hq; exact ⟨h1, (hR q).2 h2⟩
  · intro q h1 h2; exact hi.both q h1 ((hR q).1 h2)
  · intro q c f' w hq
    rcases hi.live q c f' w hq with h | h | h
    · exact .inl h
    · exact .inr (.inl ((hR q).2 h))
    · exact .inr (.inr h)
  · intro q hq; obtain ⟨h1, h2⟩ := hi.lost q hq; exact ⟨h1, fun h => h2 ((hR q).1 h)⟩

/-- The state after a connection was made. -/
def connected (s : St) (w r : Nat) (wid rid : Int) : St :=
  { s with
    nextQ := s.nextQ + 1, nextR := s.nextR + 1, rs := s.rs ++ [⟨r, rid, some s.nextR⟩], rdr := upd s.rdr s.nextR ⟨some s.nextQ, [r]⟩
    ws := s.ws ++ [⟨w, wid, s.nextQ⟩], cell := upd (upd s.cell s.nextQ (.live false w wid)) s.nextQ (.live true w wid) }

theorem sizeW_append (s t : St) (e : WE) (f : Nat) (h : t.ws = s.ws ++ [e]) : sizeW t f = sizeW s f + (if e.f = f then 1 else 0) := by
  unfold sizeW
  rw [h, List.filter_append, List.length_append]
  congr 1
  by_cases hf : e.f = f <;> simp [hf]

theorem sizeR_append (s t : St) (e : RE) (f : Nat) (h : t.rs = s.rs ++ [e]) : sizeR t f = sizeR s f + (if e.f = f then 1 else 0) := by
  unfold sizeR
  rw [h, List.filter_append, List.length_append]
  congr 1
  by_cases hf : e.f = f <;> simp [hf]

theorem connected_inv {s : St} (hi : Inv s) {w r : Nat} {wid rid : Int} (hr : findR s r rid = none) (hw : findW s w wid = none)
    (hl : sizeW s w < s.maxW w) : Inv (connected s w r wid rid) := by
  obtain ⟨t, ht⟩ : ∃ t, t = connected s w r wid rid := ⟨_, rfl⟩
  rw [← ht]
  have hn : s.cell s.nextQ = .none := hi.freshQ _ (Nat.le_refl _)
  have hnW : ¬ hasW s s.nextQ := by
    rintro ⟨e, he, hq⟩
    obtain ⟨c, hc⟩ := hi.wCell e he
    rw [hq, hn] at hc; cases hc
  have hnR : ¬ hasR s s.nextQ := by
    rintro ⟨o, ho, hq⟩
    obtain ⟨c, f', w', hc⟩ := hi.rCell o ho _ hq
    rw [hn] at hc; cases hc
  have hcq : t.cell s.nextQ = .live true w wid := by rw [ht]; exact upd_same _ _ _
  have hco : ∀ q, q ≠ s.nextQ → t.cell q = s.cell q := by
    intro q hq; rw [ht]; show upd (upd _ _ _) _ _ q = _; rw [upd_other _ _ hq, upd_other _ _ hq]
  have hws : t.ws = s.ws ++ [⟨w, wid, s.nextQ⟩] := by rw [ht]; rfl
  have hrs : t.rs = s.rs ++ [⟨r, rid, some s.nextR⟩] := by rw [ht]; rfl
  have hrn : t.rdr s.nextR = ⟨some s.nextQ, [r]⟩ := by rw [ht]; exact upd_same _ _ _
  have hro : ∀ o, o ≠ s.nextR → t.rdr o = s.rdr o := by intro o ho; rw [ht]; exact upd_other _ _ ho
  have hH : ∀ o, held t o ↔ held s o ∨ o = s.nextR := by
    intro o
    unfold held
    rw [hrs]
    constructor
    · rintro ⟨e, he, ho⟩
      rcases List.mem_append.1 he with h | h
      · exact .inl ⟨e, h, ho⟩
      · rw [List.mem_singleton] at h; rw [h] at ho; cases ho; exact .inr rfl
    · rintro (⟨e, he, ho⟩ | rfl)
      · exact ⟨e, List.mem_append.2 (.inl he), ho⟩
      · exact ⟨_, List.mem_append.2 (.inr (List.mem_singleton.2 rfl)), rfl⟩
  have hold : ∀ o, held s o → o ≠ s.nextR := fun o ho h => by have := hi.freshR o ho; omega
  have hW : ∀ q, hasW t q ↔ hasW s q ∨ q = s.nextQ := by
    intro q
    unfold hasW
    rw [hws]
    constructor
    · rintro ⟨e, he, rfl⟩
      rcases List.mem_append.1 he with h | h
      · exact .inl ⟨e, h, rfl⟩
      · rw [List.mem_singleton] at h; rw [h]; exact .inr rfl
    · rintro (⟨e, he, rfl⟩ | rfl)
      · exact ⟨e, List.mem_append.2 (.inl he), rfl⟩
      · exact ⟨_, List.mem_append.2 (.inr (List.mem_singleton.2 rfl)), rfl⟩
  have hR : ∀ q, hasR t q ↔ hasR s q ∨ q = s.nextQ := by
    intro q
    constructor
    · rintro ⟨o, ho, hq⟩
      by_cases hx : o = s.nextR
      · rw [hx, hrn] at hq; cases hq; exact .inr rfl
      · rw [hro o hx] at hq
        rcases (hH o).1 ho with h | h
        · exact .inl ⟨o, h, hq⟩
        · exact absurd h hx
    · rintro (⟨o, ho, hq⟩ | rfl)
      · exact ⟨o, (hH o).2 (.inl ho), by rw [hro o (hold o ho)]; exact hq⟩
      · exact ⟨s.nextR, (hH _).2 (.inr rfl), by rw [hrn]⟩
  refine ⟨?_, ?_, ?_, ?_, ?_, ?_, ?_, ?_, ?_, fun q hq => (by
    have hq' : q ∈ s.lost := by rw [ht] at hq; exact hq
    have : t.nextQ = s.nextQ + 1 := by rw [ht]; rfl
    have := hi.old q hq'; omega), ?_, ?_, ?_⟩
  · rw [hws]
    refine List.pairwise_append.2 ⟨hi.wKey, List.pairwise_singleton _ _, ?_⟩
    intro a ha b hb hab
    rw [List.mem_singleton] at hb; subst hb
    exact findW_none hw a ha hab
  · rw [hrs]
    refine List.pairwise_append.2 ⟨hi.rKey, List.pairwise_singleton _ _, ?_⟩
    intro a ha b hb hab
    rw [List.mem_singleton] at hb; subst hb
    exact findR_none hr a ha hab
  · intro e he
    rw [hws] at he
    rcases List.mem_append.1 he with h | h
    · have : e.q ≠ s.nextQ := fun hq => hnW ⟨e, h, hq⟩
      rw [hco _ this]; exact hi.wCell e h
    · rw [List.mem_singleton] at h; subst h
      exact ⟨true, hcq⟩
  · intro o ho q hq
    by_cases hx : o = s.nextR
    · rw [hx, hrn] at hq; cases hq; exact ⟨_, _, _, hcq⟩
    · rw [hro o hx] at hq
      rcases (hH o).1 ho with h | h
      · have : q ≠ s.nextQ := by rintro rfl; exact hnR ⟨o, h, hq⟩
        rw [hco _ this]; exact hi.rCell o h q hq
      · exact absurd h hx
  · intro o p q ho hp h1 h2
    by_cases hx : o = s.nextR
    · by_cases hy : p = s.nextR
      · rw [hx, hy]
      · rw [hx, hrn] at h1; cases h1
        rw [hro p hy] at h2
        rcases (hH p).1 hp with h | h
        · exact absurd ⟨p, h, h2⟩ hnR
        · exact absurd h hy
    · rw [hro o hx] at h1
      have ho' : held s o := by rcases (hH o).1 ho with h | h; exact h; exact absurd h hx
      by_cases hy : p = s.nextR
      · rw [hy, hrn] at h2; cases h2
        exact absurd ⟨o, ho', h1⟩ hnR
      · rw [hro p hy] at h2
        have hp' : held s p := by rcases (hH p).1 hp with h | h; exact h; exact absurd h hy
        exact hi.rInj o p q ho' hp' h1 h2
  · intro q f' w' hq
    by_cases hx : q = s.nextQ
    · exact ⟨(hW q).2 (.inr hx), (hR q).2 (.inr hx)⟩
    · rw [hco _ hx] at hq
      obtain ⟨h1, h2⟩ := hi.conn q f' w' hq
      exact ⟨(hW q).2 (.inl h1), (hR q).2 (.inl h2)⟩
  · intro q h1 h2
    by_cases hx : q = s.nextQ
    · rw [hx]; exact ⟨_, _, hcq⟩
    · rw [hco _ hx]
      rcases (hW q).1 h1 with h3 | h3
      · rcases (hR q).1 h2 with h4 | h4
        · exact hi.both q h3 h4
        · exact absurd h4 hx
      · exact absurd h3 hx
  · intro q c f' w' hq
    by_cases hx : q = s.nextQ
    · exact .inl ((hW q).2 (.inr hx))
    · rw [hco _ hx] at hq
      rcases hi.live q c f' w' hq with h | h | h
      · exact .inl ((hW q).2 (.inl h))
      · exact .inr (.inl ((hR q).2 (.inl h)))
      · exact .inr (.inr (by rw [ht]; exact h))
  · intro q hq
    have hq' : q ∈ s.lost := by rw [ht] at hq; exact hq
    obtain ⟨h1, h2⟩ := hi.lost q hq'
    have hx : q ≠ s.nextQ := by
      rintro rfl
      exact Nat.lt_irrefl _ (hi.old _ hq')
    exact ⟨fun h => by rcases (hW q).1 h with h | h; exact h1 h; exact hx h, fun h => by rcases (hR q).1 h with h | h; exact h2 h; exact hx h⟩
  · intro f
    have hm : t.maxW = s.maxW := by rw [ht]; rfl
    rw [sizeW_append s t _ f hws, hm]
    have := hi.limW f
    simp only
    split
    · rename_i h; subst h; omega
    · omega
  · intro q hq
    have hq' : s.nextQ + 1 ≤ q := by rw [ht] at hq; exact hq
    rw [hco _ (by omega)]; exact hi.freshQ q (by omega)
  · intro o ho
    have : t.nextR = s.nextR + 1 := by rw [ht]; rfl
    rw [this]
    rcases (hH o).1 ho with h | h
    · have := hi.freshR o h; omega
    · omega

end Lms.FilterConn
