import Verif.Paths.Spec

/-! Paths: what each call does. -/

namespace Lms.Paths

open FilterConn

variable {mr mw : Nat → Nat}

/-- Orderly states: reached by calls of which none gives a filter a reader twice, without null entries or negative ids. -/
structure Good (mr mw : Nat → Nat) (s : St) : Prop where
  reach : Reach mr mw s
  nn : NoNull s
  ids : ∀ e ∈ s.rs, 0 ≤ e.id

theorem Good.inv {s : St} (h : Good mr mw s) : Inv s := (reach_inv h.reach).1
theorem Good.reg {s : St} (h : Good mr mw s) : Reg s := (reach_inv h.reach).2

/-- What was joined stays so. -/
def Keeps (s t : St) : Prop := ∀ u w v r, Joined s u w v r → Joined t u w v r

/-- Nothing else becomes joined. -/
def Adds (P : Nat → Nat → Int → Prop) (s t : St) : Prop := ∀ u w v r, Joined t u w v r → Joined s u w v r ∨ P u v r

theorem Adds.trans {P Q : Nat → Nat → Int → Prop} {s t x : St} (a : Adds P s t) (b : Adds Q t x) : Adds (fun u v r => P u v r ∨ Q u v r) s x := by
  intro u w v r h
  rcases b u w v r h with h | h
  · exact (a u w v r h).imp id .inl
  · exact .inr (.inr h)

theorem Adds.mono {P Q : Nat → Nat → Int → Prop} {s t : St} (a : Adds P s t) (h : ∀ u v r, P u v r → Q u v r) : Adds Q s t :=
  fun u w v r hj => (a u w v r hj).imp id (h u v r)

theorem Adds.refl (P : Nat → Nat → Int → Prop) (s : St) : Adds P s s := fun _ _ _ _ h => .inl h

theorem joined_of {s : St} (hi : Inv s) {u v q o : Nat} {w r : Int} (h1 : ⟨u, w, q⟩ ∈ s.ws) (h2 : ⟨v, r, some o⟩ ∈ s.rs)
    (h3 : (s.rdr o).queue = some q) (h4 : v ∈ (s.rdr o).filters) : Joined s u w v r := by
  refine ⟨q, o, h1, ?_, h2, h3, h4⟩
  obtain ⟨f, x, e⟩ := hi.both q ⟨_, h1, rfl⟩ ⟨o, ⟨_, h2, rfl⟩, h3⟩
  obtain ⟨c, e'⟩ := hi.wCell _ h1
  simp only at e'
  rw [e] at e' ⊢
  cases e'
  rfl

theorem connected_adds {s : St} (hi : Inv s) {a b : Nat} {x y : Int} : Adds (fun u v r => u = a ∧ v = b ∧ r = y) s (connected s a b x y) := by
  rintro u w v r ⟨q, o, j1, _, j2, j3, j4⟩
  rcases List.mem_append.1 j1 with k1 | k1 <;> rcases List.mem_append.1 j2 with k2 | k2
  · have ho : o ≠ s.nextR := fun e => by have := hi.freshR o ⟨_, k2, rfl⟩; omega
    have e : (connected s a b x y).rdr o = s.rdr o := upd_other _ _ ho
    rw [e] at j3 j4
    exact .inl (joined_of hi k1 k2 j3 j4)
  · rw [List.mem_singleton] at k2
    cases k2
    have e : (connected s a b x y).rdr s.nextR = ⟨some s.nextQ, [b]⟩ := upd_same _ _ _
    rw [e] at j3
    cases j3
    obtain ⟨c, h⟩ := hi.wCell _ k1
    simp only at h
    rw [hi.freshQ _ (Nat.le_refl _)] at h
    cases h
  · rw [List.mem_singleton] at k1
    cases k1
    have ho : o ≠ s.nextR := fun e => by have := hi.freshR o ⟨_, k2, rfl⟩; omega
    have e : (connected s a b x y).rdr o = s.rdr o := upd_other _ _ ho
    rw [e] at j3
    obtain ⟨c, f, i, h⟩ := hi.rCell o ⟨_, k2, rfl⟩ _ j3
    rw [hi.freshQ _ (Nat.le_refl _)] at h
    cases h
  · rw [List.mem_singleton] at k1 k2
    cases k1
    cases k2
    exact .inr ⟨rfl, rfl, rfl⟩

theorem connect_keeps {s : St} (hg : Good mr mw s) {a b : Nat} {x y : Int} {h : Hooks} (hab : a ≠ b) (hh : h.rcfg = true) (hy : 0 ≤ y) :
    ∃ t c, connect s a b x y h = .ok (t, c) ∧ Good mr mw t ∧ (Keeps s t ∧ Adds (fun u v r => u = a ∧ v = b ∧ r = y) s t) ∧ (c = true → Joined t a x b y) ∧
      (c = true → t = connected s a b x y) ∧
      (c = false → t = s ∨ t = loseQ s a x ∧ findW s a x = none) := by
  obtain ⟨t, c, h1, h2⟩ := connect_ok hg.inv x y h hab
  have hi := connect_inv h1 hg.inv
  obtain ⟨t', c', h3, h4⟩ := step_safe hg.inv hg.nn (op := .connect a b x y h) ⟨hab, hh⟩
  simp only [step] at h3
  rw [h1] at h3
  cases h3
  refine ⟨t, c, h1, ⟨.step hg.reach (op := .connect a b x y h) trivial h1, h4, ?_⟩, ?_, ?_, ?_, ?_⟩
  · rcases h2 with ⟨_, rfl, _⟩ | ⟨_, rfl, _⟩ | ⟨_, rfl, _⟩ | ⟨_, _, ha, _⟩
    · intro e he
      rcases List.mem_append.1 he with he | he
      · exact hg.ids e he
      · rw [List.mem_singleton] at he; subst he; exact hy
    · exact hg.ids
    · exact hg.ids
    · rw [ha] at hh; cases hh
  · refine ⟨?_, ?_⟩
    rotate_left
    · rcases h2 with ⟨_, rfl, _⟩ | ⟨_, rfl, _⟩ | ⟨_, rfl, _⟩ | ⟨_, _, ha, _⟩
      · exact connected_adds hg.inv
      · exact Adds.refl _ _
      · exact fun u w v r ⟨q, o, j1, _, j2, j3, j4⟩ => .inl (joined_of hg.inv j1 j2 j3 j4)
      · rw [ha] at hh; cases hh
    rintro u w v r ⟨q, o, j1, _, j2, j3, j4⟩
    have ho : o ≠ s.nextR := fun e => by have := hg.inv.freshR o ⟨_, j2, rfl⟩; omega
    rcases h2 with ⟨_, rfl, _⟩ | ⟨_, rfl, _⟩ | ⟨_, rfl, _⟩ | ⟨_, _, ha, _⟩
    · have e : (connected s a b x y).rdr o = s.rdr o := upd_other _ _ ho
      refine joined_of hi (List.mem_append_left _ j1) (List.mem_append_left _ j2) ?_ ?_
      · rw [e]; exact j3
      · rw [e]; exact j4
    · exact joined_of hi j1 j2 j3 j4
    · exact joined_of hi j1 j2 j3 j4
    · rw [ha] at hh; cases hh
  · intro hc
    rcases h2 with ⟨_, rfl, _⟩ | ⟨e, _⟩ | ⟨e, _⟩ | ⟨e, _⟩
    · have e : (connected s a b x y).rdr s.nextR = ⟨some s.nextQ, [b]⟩ := upd_same _ _ _
      refine joined_of (q := s.nextQ) (o := s.nextR) hi (List.mem_append_right _ (List.mem_singleton.2 rfl))
        (List.mem_append_right _ (List.mem_singleton.2 rfl)) ?_ ?_
      · rw [e]
      · rw [e]; simp
    · rw [e] at hc; cases hc
    · rw [e] at hc; cases hc
    · rw [e] at hc; cases hc
  · intro hc
    rcases h2 with ⟨_, e, _⟩ | ⟨e, _⟩ | ⟨e, _⟩ | ⟨e, _⟩
    · exact e
    · rw [e] at hc; cases hc
    · rw [e] at hc; cases hc
    · rw [e] at hc; cases hc
  · intro hc
    rcases h2 with ⟨e, _⟩ | ⟨_, e, _⟩ | ⟨_, e, _, _, _, e', _⟩ | ⟨_, _, ha, _⟩
    · rw [e] at hc; cases hc
    · exact .inl e
    · exact .inr ⟨e, e'⟩
    · rw [ha] at hh; cases hh

/-! ### Sharing -/

/-- The readers noted with a queue are those who hold its reader. -/
theorem readersOf_ok {s : St} (hi : Inv s) (hr : Reg s) {q o : Nat} (ho : held s o) (hq : (s.rdr o).queue = some q) :
    readersOf s q ≠ [] ∧ (∀ f id, (f, id) ∈ readersOf s q → ⟨f, id, some o⟩ ∈ s.rs) ∧
      ∀ x ∈ s.rs, x.obj = some o → (x.f, x.id) ∈ readersOf s q := by
  have hf : ∃ e, s.rs.find? (reads s q) = some e ∧
      e ∈ s.rs ∧ e.obj = some o := by
    cases hc : s.rs.find? (reads s q) with
    | none =>
      obtain ⟨x, hx, hxo⟩ := ho
      have := List.find?_eq_none.1 hc x hx
      simp [reads, hxo, hq] at this
    | some e =>
      have h1 := List.mem_of_find?_eq_some hc
      have h2 := List.find?_some hc
      refine ⟨e, rfl, h1, ?_⟩
      cases he : e.obj with
      | none => simp [reads, he] at h2
      | some p =>
        simp [reads, he] at h2
        rw [hi.rInj p o q ⟨e, h1, he⟩ ho h2 hq]
  obtain ⟨e, he, hem, heo⟩ := hf
  have hval : readersOf s q = (s.rdr o).filters.filterMap fun f => (s.rs.find? fun e => e.f = f ∧ e.obj = some o).map fun e => (f, e.id) := by
    unfold readersOf
    rw [he]
    obtain ⟨a, b, c⟩ := e
    simp only at heo
    subst heo
    rfl
  have hin : ∀ x ∈ s.rs, x.obj = some o → (x.f, x.id) ∈ readersOf s q := by
    intro x hx hxo
    rw [hval, List.mem_filterMap]
    refine ⟨x.f, (hr.reg x hx o hxo).1, ?_⟩
    cases hc : s.rs.find? fun e => e.f = x.f ∧ e.obj = some o with
    | none =>
      have := List.find?_eq_none.1 hc x hx
      simp [hxo] at this
    | some y =>
      have h1 := List.mem_of_find?_eq_some hc
      have h2 := List.find?_some hc
      simp only [decide_eq_true_eq] at h2
      rw [hr.one y h1 x hx h2.1 o h2.2 hxo]
      rfl
  refine ⟨fun hn => ?_, fun f id h => ?_, hin⟩
  · have := hin e hem heo
    rw [hn] at this
    cases this
  · rw [hval, List.mem_filterMap] at h
    obtain ⟨g, _, h⟩ := h
    cases hc : s.rs.find? fun e => e.f = g ∧ e.obj = some o with
    | none => rw [hc] at h; simp at h
    | some y =>
      rw [hc] at h
      simp at h
      obtain ⟨rfl, rfl⟩ := h
      have h1 := List.mem_of_find?_eq_some hc
      have h2 := List.find?_some hc
      simp only [decide_eq_true_eq] at h2
      obtain ⟨a, b, c⟩ := y
      obtain ⟨rfl, rfl⟩ := h2
      exact h1

theorem isRConnected_fed {s : St} (hi : Inv s) {f o : Nat} {id : Int} (he : (⟨f, id, some o⟩ : RE) ∈ s.rs) (hf : fed s o) :
    isRConnected s f id = .ok true := by
  unfold isRConnected
  have := findR_of_mem hi he
  simp only at this
  rw [this]
  obtain ⟨b, h1, h2⟩ := rConnected_ok hi (o := o) ⟨_, he, rfl⟩
  simp only
  rw [h1, h2.2 hf]

theorem readersFit_ok {s : St} (hi : Inv s) {dst o : Nat} (hf : fed s o) : ∀ (l : List (Nat × Int)), (∀ f id, (f, id) ∈ l → ⟨f, id, some o⟩ ∈ s.rs) →
    ∃ b, readersFit s dst l = .ok b ∧ (b = true ↔ ∀ f id, (f, id) ∈ l → f ≠ dst) := by
  intro l
  induction l with
  | nil => intro _; exact ⟨true, rfl, by simp⟩
  | cons x l ih =>
    obtain ⟨f, id⟩ := x
    intro h
    unfold readersFit
    by_cases hd : f = dst
    · rw [if_pos hd]
      refine ⟨false, rfl, by simp, fun hh => absurd hd (hh f id List.mem_cons_self)⟩
    · rw [if_neg hd, isRConnected_fed hi (h f id List.mem_cons_self) hf]
      simp only [Outcome.bind_ok, if_true]
      obtain ⟨b, h1, h2⟩ := ih fun g i hm => h g i (List.mem_cons_of_mem _ hm)
      refine ⟨b, h1, h2.trans ⟨fun hh g i hm => ?_, fun hh g i hm => hh g i (List.mem_cons_of_mem _ hm)⟩⟩
      rcases List.mem_cons.1 hm with e | e
      · cases e; exact hd
      · exact hh g i e

/-- All that `handleGrouping` can do. -/
theorem grouping_ok {s : St} (hg : Good mr mw s) (org dst : Nat) (orgW : Int) {dstR : Int} (hd0 : 0 ≤ dstR) (rcfg : Bool) :
    ∃ t b, handleGrouping s org dst orgW dstR rcfg = .ok (t, b) ∧ Good mr mw t ∧ (Keeps s t ∧ Adds (fun u v r => u = org ∧ v = dst ∧ r = dstR) s t) ∧ (b = false → t = s) ∧
      (b = true → Joined t org orgW dst dstR ∧ t.ws = s.ws ∧ (∃ p, t.rs = (eraseR s dst dstR).rs ++ [⟨dst, dstR, some p⟩]) ∧ t.maxR = s.maxR ∧ t.maxW = s.maxW) ∧
      (rcfg = true → ∀ e o, e ∈ s.ws → e.f = org ∧ e.id = orgW → held s o → (s.rdr o).queue = some e.q →
        (∀ x ∈ s.rs, x.f = dst → x.obj ≠ some o) → findR s dst dstR = none → b = true) := by
  have hi := hg.inv
  have hr := hg.reg
  have no : ∀ {x : Outcome (St × Bool)}, x = .ok (s, false) →
      (∀ e o, e ∈ s.ws → e.f = org ∧ e.id = orgW → held s o → (s.rdr o).queue = some e.q → (∀ x ∈ s.rs, x.f = dst → x.obj ≠ some o) → False) →
      ∃ t b, x = .ok (t, b) ∧ Good mr mw t ∧ (Keeps s t ∧ Adds (fun u v r => u = org ∧ v = dst ∧ r = dstR) s t) ∧ (b = false → t = s) ∧
      (b = true → Joined t org orgW dst dstR ∧ t.ws = s.ws ∧ (∃ p, t.rs = (eraseR s dst dstR).rs ++ [⟨dst, dstR, some p⟩]) ∧ t.maxR = s.maxR ∧ t.maxW = s.maxW) ∧
      (rcfg = true → ∀ e o, e ∈ s.ws → e.f = org ∧ e.id = orgW → held s o → (s.rdr o).queue = some e.q →
        (∀ x ∈ s.rs, x.f = dst → x.obj ≠ some o) → findR s dst dstR = none → b = true) :=
    fun hx hn => ⟨s, false, hx, hg, ⟨fun _ _ _ _ h => h, Adds.refl _ _⟩, fun _ => rfl, fun h => (by cases h), fun _ e o a a' b c d _ => (hn e o a a' b c d).elim⟩
  unfold handleGrouping isWConnected
  cases hw : findW s org orgW with
  | none => exact no rfl fun e o a a' _ _ _ => findW_none hw e a a'
  | some e =>
    obtain ⟨h1, h2, h3⟩ := findW_some hw
    obtain ⟨c, hc, hcs⟩ := qConnected_ok hi h1
    simp only
    rw [hc, Outcome.bind_ok]
    cases c with
    | false =>
      refine no (by simp) fun e' o a a' b c _ => ?_
      obtain rfl := hi.wUnique a h1 ⟨a'.1.trans h2.symm, a'.2.trans h3.symm⟩
      have := hcs.2 ⟨o, b, c⟩
      cases this
    | true =>
    simp only [if_true]
    obtain ⟨o, ho, hq⟩ := hcs.1 rfl
    obtain ⟨cc, hcell⟩ := hi.wCell e h1
    rw [hcell]
    simp only
    obtain ⟨r1, r2, r3⟩ := readersOf_ok hi hr ho hq
    have hf : fed s o := ⟨e.q, hq, e, h1, rfl⟩
    obtain ⟨b, hb, hbs⟩ := readersFit_ok (dst := dst) hi hf (readersOf s e.q) r2
    unfold validCData isWConnected
    rw [if_neg (by simp [h2]), hb]
    simp only [Outcome.bind_ok]
    cases b with
    | false =>
      refine no (by simp) fun e' o' a a' b c d => ?_
      rw [hi.wUnique a h1 ⟨a'.1.trans h2.symm, a'.2.trans h3.symm⟩] at c
      obtain rfl := hi.rInj o' o _ b ho c hq
      have : ∀ f id, (f, id) ∈ readersOf s e.q → f ≠ dst := fun f id hm hd => by
        exact d _ (r2 f id hm) hd rfl
      have := hbs.2 this
      cases this
    | true =>
    simp only [if_true]
    rw [h2, h3, hw]
    simp only
    rw [hc]
    simp only [Outcome.bind_ok, if_true]
    have hnd := hbs.1 rfl
    cases hl : readersOf s e.q with
    | nil => exact absurd hl r1
    | cons y l =>
      obtain ⟨f, id⟩ := y
      have hfe : (⟨f, id, some o⟩ : RE) ∈ s.rs := r2 f id (by rw [hl]; exact List.mem_cons_self)
      have hpl : Plain s (.share f dst dstR id rcfg) := by
        intro x hx hk p hp z hz hzf hzo
        obtain rfl : p = o := by
          have := hi.rUnique hx hfe hk
          rw [this] at hp
          cases hp
          rfl
        exact hnd _ _ (r3 z hz hzo) hzf
      obtain ⟨t, b, s1, s2⟩ := share_ok hi f dst dstR id rcfg (fun e he _ => hg.nn e he) (fun e he _ => hg.nn e he)
      refine ⟨t, b, s1, ⟨.step hg.reach (op := .share f dst dstR id rcfg) hpl s1, (share_inv s1 hi).2.2.2.2 hg.nn, ?_⟩, ?_, ?_, ?_, ?_⟩
      · rcases s2 with ⟨_, rfl, _⟩ | ⟨_, _, _, _, _, _, _, _, trs, _⟩
        · exact hg.ids
        · intro x hx
          rw [trs] at hx
          rcases List.mem_append.1 hx with hx | hx
          · exact hg.ids x ((filter_mem_iff _).1 hx).1
          · rw [List.mem_singleton] at hx; subst hx; exact hd0
      · rcases s2 with ⟨_, rfl, _⟩ | ⟨_, _, _, hno, hit, p, hp, hpf, trs, tws, _, _, _, _, _, tq, tf, to⟩
        · exact ⟨fun _ _ _ _ h => h, Adds.refl _ _⟩
        · refine ⟨?_, ?_⟩
          rotate_left
          · rintro u w v r ⟨q', o', j1, _, j2, j3, _⟩
            rw [tws] at j1
            rw [trs] at j2
            rcases List.mem_append.1 j2 with k | k
            · refine .inl (joined_of hi j1 ((filter_mem_iff _).1 k).1 (q := q') (o := o') ?_ (hr.reg _ ((filter_mem_iff _).1 k).1 _ rfl).1)
              by_cases e : o' = p
              · rw [e] at j3 ⊢; rw [← tq]; exact j3
              · rw [to o' e ⟨_, k, rfl⟩] at j3; exact j3
            · rw [List.mem_singleton] at k
              cases k
              obtain rfl : p = o := by
                have := hi.rUnique hp hfe ⟨rfl, rfl⟩
                cases this
                rfl
              rw [tq, hq] at j3
              cases j3
              have := hi.wInj j1 h1 rfl
              refine .inr ⟨?_, rfl, rfl⟩
              rw [← h2, ← this]
          rintro u w v r ⟨q', o', j1, _, j2, j3, j4⟩
          have hk : ¬ (v = dst ∧ r = dstR) := fun hk => hno _ j2 hk o' rfl ⟨q', j3, _, j1, rfl⟩
          have hm : (⟨v, r, some o'⟩ : RE) ∈ (eraseR s dst dstR).rs := (filter_mem_iff _).2 ⟨j2, hk⟩
          refine joined_of hit (q := q') (o := o') (by rw [tws]; exact j1) (by rw [trs]; exact List.mem_append_left _ hm) ?_ ?_
          · by_cases e : o' = p
            · rw [e, tq, ← e]; exact j3
            · rw [to o' e ⟨_, hm, rfl⟩]; exact j3
          · by_cases e : o' = p
            · rw [e, tf, ← e]
              split
              · exact j4
              · exact List.mem_append_left _ j4
            · rw [to o' e ⟨_, hm, rfl⟩]; exact j4
      · intro hb'
        rcases s2 with ⟨_, e, _⟩ | ⟨e, _⟩
        · exact e
        · rw [e] at hb'; cases hb'
      · intro hb'
        rcases s2 with ⟨e, _⟩ | ⟨_, _, _, hno, hit, p, hp, hpf, trs, tws, _, tmr, tmw, _, _, tq, tf, to⟩
        · rw [e] at hb'; cases hb'
        · obtain rfl : p = o := by
            have := hi.rUnique hp hfe ⟨rfl, rfl⟩
            cases this
            rfl
          refine ⟨joined_of hit (q := e.q) (o := p) ?_ (by rw [trs]; exact List.mem_append_right _ (List.mem_singleton.2 rfl)) (tq.trans hq) ?_, tws, ⟨_, trs⟩, tmr, tmw⟩
          · rw [tws]
            obtain ⟨a, b, c⟩ := e
            simp only at h2 h3
            subst h2 h3
            exact h1
          · rw [tf]
            split
            · assumption
            · simp
      · intro hrc e' o' a1 _ a2 a3 a4 a5
        rcases s2 with ⟨_, _, h⟩ | ⟨e, _⟩
        · exfalso
          rcases h with h | h | ⟨x, hx, x1, x2, _⟩ | h
          · exact hnd f id (by rw [hl]; exact List.mem_cons_self) h
          · exact h _ hfe ⟨rfl, rfl⟩ o rfl hf
          · exact findR_none a5 x hx ⟨x1, x2⟩
          · rw [hrc] at h; cases h
        · exact e

/-! ### Paths -/

theorem Keeps.trans {s t u : St} (a : Keeps s t) (b : Keeps t u) : Keeps s u := fun _ _ _ _ h => b _ _ _ _ (a _ _ _ _ h)

theorem leads_keeps {s t : St} (h : Keeps s t) : ∀ (l : List Nat) {u dst : Nat} {w r : Int}, Leads s u w l dst r → Leads t u w l dst r := by
  intro l
  induction l with
  | nil => intro u dst w r hl; exact h _ _ _ _ hl
  | cons m ms ih =>
    rintro u dst w r ⟨⟨r', h1⟩, w', h2⟩
    exact ⟨⟨r', h _ _ _ _ h1⟩, w', ih h2⟩

theorem head_ok {s : St} (hg : Good mr mw s) {org d : Nat} {orgW r r' : Int} {h : Hooks} (hne : org ≠ d) (hh : h.rcfg = true) (h0 : 0 ≤ r) (h0' : 0 ≤ r') :
    ∃ t b, head s org d orgW r r' h = .ok (t, b) ∧ Good mr mw t ∧ (Keeps s t ∧ Adds (fun u v x => u = org ∧ v = d ∧ (x = r ∨ x = r')) s t) ∧
      (b = true → Joined t org orgW d r ∨ Joined t org orgW d r') := by
  obtain ⟨t, c, h1, h2, h3, h4, _, _⟩ := connect_keeps (x := orgW) (y := r) hg hne hh h0
  unfold head
  rw [h1]
  simp only [Outcome.bind_ok]
  cases c with
  | true => exact ⟨t, true, by simp, h2, ⟨h3.1, h3.2.mono fun _ _ _ h => ⟨h.1, h.2.1, .inl h.2.2⟩⟩, fun _ => .inl (h4 rfl)⟩
  | false =>
    obtain ⟨t', b, g1, g2, g3, _, g5, _⟩ := grouping_ok h2 org d orgW h0' h.rcfg
    exact ⟨t', b, by simpa using g1, g2, ⟨h3.1.trans g3.1, (h3.2.trans g3.2).mono fun _ _ _ h => h.elim (fun h => ⟨h.1, h.2.1, .inl h.2.2⟩) fun h => ⟨h.1, h.2.1, .inr h.2.2⟩⟩, fun hb => .inr (g5 hb).1⟩

/-- The filters of a path are joined one by one. -/
def Chain (s : St) : List Nat → Prop
  | a :: b :: l => (∃ w r, Joined s a w b r) ∧ Chain s (b :: l)
  | _ => True

theorem chain_keeps {s t : St} (h : Keeps s t) : ∀ (l : List Nat), Chain s l → Chain t l := by
  intro l
  induction l with
  | nil => intro _; trivial
  | cons a l ih =>
    cases l with
    | nil => intro _; trivial
    | cons b l =>
      rintro ⟨⟨w, r, h1⟩, h2⟩
      exact ⟨⟨w, r, h _ _ _ _ h1⟩, ih h2⟩

theorem inner_ok {e : Env} (hc : ∀ a b, (e.hook a b).rcfg = true) (h0 : ∀ m, 0 ≤ e.rid m) : ∀ (l : List Nat), l.Nodup → ∀ {s : St}, Good mr mw s →
    ∃ t b, inner e s l = .ok (t, b) ∧ Good mr mw t ∧ (Keeps s t ∧ Adds (fun u v _ => Next l u v) s t) ∧ (b = true → Chain t l) := by
  intro l
  induction l with
  | nil => intro _ s hg; exact ⟨s, true, rfl, hg, ⟨fun _ _ _ _ h => h, Adds.refl _ _⟩, fun _ => trivial⟩
  | cons a l ih =>
    intro hn s hg
    cases l with
    | nil => exact ⟨s, true, rfl, hg, ⟨fun _ _ _ _ h => h, Adds.refl _ _⟩, fun _ => trivial⟩
    | cons b l =>
      have hab : a ≠ b := fun h => by simp [h] at hn
      obtain ⟨t, c, h1, h2, h3, h4, _, _⟩ := connect_keeps (x := e.wid a) (y := e.rid b) hg hab (hc a b) (h0 b)
      unfold inner
      rw [h1]
      simp only [Outcome.bind_ok]
      cases c with
      | false => exact ⟨t, false, by simp, h2, ⟨h3.1, h3.2.mono fun u v _ h => ⟨[], l, by rw [h.1, h.2.1]; rfl⟩⟩, fun h => (by cases h)⟩
      | true =>
        obtain ⟨t', c', i1, i2, i3, i4⟩ := ih (List.nodup_cons.1 hn).2 h2
        refine ⟨t', c', by simpa using i1, i2, ⟨h3.1.trans i3.1, (h3.2.trans i3.2).mono fun u v _ h => ?_⟩, fun hb => ⟨⟨_, _, i3.1 _ _ _ _ (h4 rfl)⟩, i4 hb⟩⟩
        rcases h with ⟨rfl, rfl, _⟩ | ⟨x, y, h⟩
        · exact ⟨[], l, rfl⟩
        · exact ⟨a :: x, y, by rw [h]; rfl⟩

theorem chain_leads {s : St} : ∀ (l : List Nat) (hl : l ≠ []) {u dst : Nat} {w r' w' r : Int}, Joined s u w (l.head hl) r' → Chain s l →
    Joined s (l.getLast hl) w' dst r → Leads s u w l dst r := by
  intro l
  induction l with
  | nil => intro hl; exact absurd rfl hl
  | cons a l ih =>
    intro hl u dst w r' w' r h1 h2 h3
    cases l with
    | nil => exact ⟨⟨r', h1⟩, w', h3⟩
    | cons b l =>
      obtain ⟨⟨x, y, h4⟩, h5⟩ := h2
      exact ⟨⟨r', h1⟩, x, ih (by simp) h4 h5 h3⟩

theorem path_ok {e : Env} {p : Path} (hf : Fit e p) {s : St} (hg : Good mr mw s) :
    ∃ t b, connectPath e s p = .ok (t, b) ∧ Good mr mw t ∧ (Keeps s t ∧ Adds (fun u v r => Next (p.org :: p.mid ++ [p.dst]) u v ∧ (v = p.dst → r = p.dstR)) s t) ∧ (b = true → Leads t p.org p.orgW p.mid p.dst p.dstR) := by
  obtain ⟨org, orgW, mid, dst, dstR⟩ := p
  obtain ⟨f1, f2, f3, f4, f5, f6, f7⟩ := hf
  simp only at f1 f2 f3 f4
  unfold connectPath
  cases mid with
  | nil =>
    obtain ⟨t, b, h1, h2, h3, h4⟩ := head_ok (orgW := orgW) (r := dstR) (r' := dstR) hg (f4 rfl) (f5 org dst) f7 f7
    exact ⟨t, b, h1, h2, ⟨h3.1, h3.2.mono fun u v _ h => ⟨⟨[], [], by rw [h.1, h.2.1]; rfl⟩, fun _ => h.2.2.elim id id⟩⟩, fun hb => (h4 hb).elim id id⟩
  | cons m ms =>
    have hne : org ≠ m := fun h => f2 (by rw [h]; exact List.mem_cons_self)
    obtain ⟨t, b, h1, h2, h3, h4⟩ := head_ok (orgW := orgW) (r := e.rid m) (r' := defaultId) hg hne (f5 org m) (f6 m) (by decide)
    simp only
    rw [h1]
    simp only [Outcome.bind_ok]
    have h3' : Adds (fun u v r => Next (org :: (m :: ms) ++ [dst]) u v ∧ (v = dst → r = dstR)) s t :=
      h3.2.mono fun u v _ h => ⟨⟨[], ms ++ [dst], by rw [h.1, h.2.1]; rfl⟩, fun hd => absurd List.mem_cons_self (by rw [← h.2.1, hd] at f3; exact f3)⟩
    cases b with
    | false => exact ⟨t, false, by simp, h2, ⟨h3.1, h3'⟩, fun h => (by cases h)⟩
    | true =>
      obtain ⟨t1, b1, i1, i2, i3, i4⟩ := inner_ok f5 f6 (m :: ms) f1 h2
      simp only [if_true]
      rw [i1]
      simp only [Outcome.bind_ok]
      have i3' : Adds (fun u v r => Next (org :: (m :: ms) ++ [dst]) u v ∧ (v = dst → r = dstR)) s t1 := (h3'.trans i3.2).mono fun u v _ h => by
        rcases h with h | ⟨x, y, h⟩
        · exact h
        · exact ⟨⟨org :: x, y ++ [dst], by rw [h]; simp⟩, fun hd => absurd (show dst ∈ m :: ms by rw [h, ← hd]; simp) f3⟩
      cases b1 with
      | false => exact ⟨t1, false, by simp, i2, ⟨h3.1.trans i3.1, i3'⟩, fun h => (by cases h)⟩
      | true =>
        simp only [if_true]
        have hl : (m :: ms).getLast (by simp) ≠ dst := fun h => f3 (by rw [← h]; exact List.getLast_mem _)
        obtain ⟨t2, b2, j1, j2, j3, j4, _, _⟩ := connect_keeps (x := e.wid ((m :: ms).getLast (by simp))) (y := dstR) i2 hl (f5 _ dst) f7
        refine ⟨t2, b2, j1, j2, ⟨(h3.1.trans i3.1).trans j3.1, (i3'.trans j3.2).mono fun u v _ h => ?_⟩, fun hb => ?_⟩
        · rcases h with h | ⟨rfl, rfl, rfl⟩
          · exact h
          · refine ⟨⟨org :: (m :: ms).dropLast, [], ?_⟩, fun _ => rfl⟩
            have := List.dropLast_concat_getLast (l := m :: ms) (by simp)
            generalize (m :: ms).getLast _ = z at this
            rw [← this]
            simp
        have hh : ∃ r', Joined t2 org orgW m r' := by
          rcases h4 rfl with h | h
          · exact ⟨_, j3.1 _ _ _ _ (i3.1 _ _ _ _ h)⟩
          · exact ⟨_, j3.1 _ _ _ _ (i3.1 _ _ _ _ h)⟩
        obtain ⟨r', hh⟩ := hh
        exact chain_leads (m :: ms) (by simp) hh (chain_keeps j3.1 _ (i4 rfl)) (j4 hb)

/-! ### When a path can be connected -/

theorem connect_free {s : St} (hg : Good mr mw s) {a b : Nat} {x y : Int} {h : Hooks} (hab : a ≠ b) (hh : h = ⟨true, true, true⟩) (hy0 : 0 ≤ y)
    (h1 : findW s a x = none) (h2 : sizeW s a < s.maxW a) (h3 : findR s b y = none) (h4 : sizeR s b < s.maxR b) :
    connect s a b x y h = .ok (connected s a b x y, true) ∧ Good mr mw (connected s a b x y) := by
  obtain ⟨t, c, e1, e2⟩ := connect_ok hg.inv x y h hab
  have hc : t = connected s a b x y ∧ c = true := by
    rcases e2 with ⟨a1, a2, _⟩ | ⟨_, _, h⟩ | ⟨_, _, _, _, _, _, h⟩ | ⟨_, _, h, _⟩
    · exact ⟨a2, a1⟩
    · subst hh
      rw [h1, h3] at h
      simp at h
      omega
    · rw [h3] at h
      simp at h
      omega
    · rw [hh] at h; cases h
  obtain ⟨rfl, rfl⟩ := hc
  obtain ⟨t, c, f1, f2, _⟩ := connect_keeps (x := x) (y := y) (h := h) hg hab (by rw [hh]) hy0
  rw [e1] at f1
  cases f1
  exact ⟨e1, f2⟩

theorem connect_taken {s : St} (hg : Good mr mw s) {a b : Nat} {x : Int} (y : Int) {h : Hooks} (hab : a ≠ b) (h1 : (findW s a x).isSome = true) :
    connect s a b x y h = .ok (s, false) := by
  obtain ⟨t, c, e1, e2⟩ := connect_ok hg.inv x y h hab
  have hn : findW s a x ≠ none := fun h => by rw [h] at h1; cases h1
  rcases e2 with ⟨_, _, _, h, _⟩ | ⟨rfl, rfl, _⟩ | ⟨_, _, _, _, _, h, _⟩ | ⟨_, _, _, _, h, _⟩
  · exact absurd h hn
  · exact e1
  · exact absurd h hn
  · exact absurd h hn

theorem Bare.takes {s : St} {m : Nat} (h : Bare s m) (r : Int) : Takes s m r := by
  refine ⟨List.find?_eq_none.2 fun e he => ?_, ?_⟩
  · have := h.rs e he
    simp [this]
  · have : sizeR s m = 0 := by
      unfold sizeR
      rw [List.filter_eq_nil_iff.2 fun e he => by simp [h.rs e he]]
      rfl
    rw [this]
    exact h.maxR

theorem free_writer {s : St} {m : Nat} (h : ∀ e ∈ s.ws, e.f ≠ m) (w : Int) : findW s m w = none ∧ sizeW s m = 0 := by
  refine ⟨List.find?_eq_none.2 fun e he => by simp [h e he], ?_⟩
  unfold sizeW
  rw [List.filter_eq_nil_iff.2 fun e he => by simp [h e he]]
  rfl

theorem bare_mono {s t : St} {m : Nat} (h : Bare s m) (h1 : ∀ e ∈ t.rs, e ∈ s.rs ∨ e.f ≠ m) (h2 : ∀ e ∈ t.ws, e ∈ s.ws ∨ e.f ≠ m)
    (h3 : t.maxR = s.maxR) (h4 : t.maxW = s.maxW) : Bare t m :=
  ⟨fun e he => (h1 e he).elim (h.rs e) id, fun e he => (h2 e he).elim (h.ws e) id, by rw [h3]; exact h.maxR, by rw [h4]; exact h.maxW⟩

theorem connected_bare {s : St} {a b m : Nat} {x y : Int} (h : Bare s m) (ha : a ≠ m) (hb : b ≠ m) : Bare (connected s a b x y) m := by
  refine bare_mono h (fun e he => ?_) (fun e he => ?_) rfl rfl
  · rcases List.mem_append.1 he with he | he
    · exact .inl he
    · rw [List.mem_singleton] at he; subst he; exact .inr hb
  · rcases List.mem_append.1 he with he | he
    · exact .inl he
    · rw [List.mem_singleton] at he; subst he; exact .inr ha

theorem connected_takes {s : St} {a b v : Nat} {x y r : Int} (h : Takes s v r) (hb : b ≠ v) : Takes (connected s a b x y) v r := by
  have e : (connected s a b x y).rs = s.rs ++ [⟨b, y, some s.nextR⟩] := rfl
  refine ⟨?_, ?_⟩
  · unfold findR
    rw [e, List.find?_append]
    have := h.none
    unfold findR at this
    rw [this]
    simp [hb]
  · rw [sizeR_append _ _ _ v e]
    simp only [if_neg hb]
    exact h.room

/-- The rest of a path whose filters are bare is connected. -/
theorem inner_free {e : Env} (hy : ∀ a b, e.hook a b = ⟨true, true, true⟩) (h0 : ∀ m, 0 ≤ e.rid m) {dst : Nat} {dstR : Int} : ∀ (l : List Nat) (a : Nat) {s : St}, Good mr mw s → (a :: l).Nodup →
    dst ∉ a :: l → (∀ m ∈ l, Bare s m) → (∀ x ∈ s.ws, x.f ≠ a) → 0 < s.maxW a → Takes s dst dstR →
    ∃ t, inner e s (a :: l) = .ok (t, true) ∧ Good mr mw t ∧ (∀ x ∈ t.ws, x.f ≠ (a :: l).getLast (by simp)) ∧ 0 < t.maxW ((a :: l).getLast (by simp)) ∧ Takes t dst dstR := by
  intro l
  induction l with
  | nil => intro a s hg _ _ _ hw hm hd; exact ⟨s, rfl, hg, hw, hm, hd⟩
  | cons b l ih =>
    intro a s hg hn hdn hb hw hm hd
    have hab : a ≠ b := fun h => by simp [h] at hn
    have hbl : b ∉ l := (List.nodup_cons.1 (List.nodup_cons.1 hn).2).1
    have hal : a ∉ l := fun h => (List.nodup_cons.1 hn).1 (List.mem_cons_of_mem _ h)
    have hbb := hb b List.mem_cons_self
    obtain ⟨f1, f2⟩ := free_writer hw (e.wid a)
    have t1 := hbb.takes (e.rid b)
    obtain ⟨c1, c2⟩ := connect_free (x := e.wid a) (y := e.rid b) hg hab (hy a b) (h0 b) f1 (by rw [f2]; exact hm) t1.none t1.room
    unfold inner
    rw [c1]
    simp only [Outcome.bind_ok, if_true]
    have hdb : b ≠ dst := fun h => hdn (by rw [← h]; simp)
    obtain ⟨t, i1, i2, i3, i4, i5⟩ := ih b (s := connected s a b (e.wid a) (e.rid b)) c2 (List.nodup_cons.1 hn).2 (fun h => hdn (List.mem_cons_of_mem _ h))
      (fun m hm' => connected_bare (hb m (List.mem_cons_of_mem _ hm')) (fun h => hal (h ▸ hm')) (fun h => hbl (h ▸ hm')))
      (fun x hx => by
        rcases List.mem_append.1 hx with hx | hx
        · exact hbb.ws x hx
        · rw [List.mem_singleton] at hx; subst hx; exact hab)
      hbb.maxW (connected_takes hd hdb)
    exact ⟨t, i1, i2, i3, i4, i5⟩

theorem head_free {s : St} (hg : Good mr mw s) {org d : Nat} {orgW r r' : Int} {h : Hooks} (hne : org ≠ d) (hh : h = ⟨true, true, true⟩) (h0 : 0 ≤ r) (h0' : 0 ≤ r')
    (hb : Begins s org orgW d) (hd : Takes s d r) (hd' : findR s d r' = none) :
    ∃ t, head s org d orgW r r' h = .ok (t, true) ∧ Good mr mw t ∧ t.maxR = s.maxR ∧ t.maxW = s.maxW ∧
      (∀ e ∈ t.ws, e ∈ s.ws ∨ e.f = org) ∧ (∀ e ∈ t.rs, e ∈ s.rs ∨ e.f = d) ∧ (∀ v x, v ≠ d → Takes s v x → Takes t v x) := by
  rcases hb with ⟨b1, b2⟩ | ⟨⟨v, r0, q, o, j1, j2, j3, j4, j5⟩, b2⟩
  · obtain ⟨c1, c2⟩ := connect_free (x := orgW) (y := r) hg hne hh h0 b1 b2 hd.none hd.room
    refine ⟨_, by unfold head; rw [c1]; rfl, c2, rfl, rfl, fun e he => ?_, fun e he => ?_, fun v x hv hx => connected_takes hx hv.symm⟩
    · rcases List.mem_append.1 he with he | he
      · exact .inl he
      · rw [List.mem_singleton] at he; subst he; exact .inr rfl
    · rcases List.mem_append.1 he with he | he
      · exact .inl he
      · rw [List.mem_singleton] at he; subst he; exact .inr rfl
  · have hw : findW s org orgW = some ⟨org, orgW, q⟩ := findW_of_mem hg.inv j1
    have c1 := connect_taken (a := org) (b := d) (x := orgW) (h := h) hg r hne (by rw [hw]; rfl)
    obtain ⟨t, b, g1, g2, g3, g4, g5, g6⟩ := grouping_ok hg org d orgW h0' h.rcfg
    have hb := g6 (by rw [hh]) _ o j1 ⟨rfl, rfl⟩ ⟨_, j3, rfl⟩ j4
      (fun x hx hxf hxo => by
        obtain ⟨a, i, ob⟩ := x
        simp only at hxf hxo
        subst hxf hxo
        exact b2 i (joined_of hg.inv j1 hx j4 (hg.reg.reg _ hx o rfl).1)) hd'
    subst hb
    obtain ⟨_, k1, ⟨z, k2⟩, k3, k4⟩ := g5 rfl
    have k2' : t.rs = s.rs ++ [⟨d, r', some z⟩] := by
      rw [k2]
      congr 1
      exact List.filter_eq_self.2 fun e he => decide_eq_true (findR_none hd' e he)
    refine ⟨t, by unfold head; rw [c1]; simpa using g1, g2, k3, k4, fun e he => .inl (by rw [← k1]; exact he),
      fun e he => ?_, fun v' x hv hx => ⟨?_, ?_⟩⟩
    · rw [k2'] at he
      rcases List.mem_append.1 he with he | he
      · exact .inl he
      · rw [List.mem_singleton] at he; subst he; exact .inr rfl
    · unfold findR
      rw [k2', List.find?_append]
      have := hx.none
      unfold findR at this
      rw [this]
      simp [hv.symm]
    · rw [sizeR_append _ _ _ v' k2', k3]
      simp only [if_neg hv.symm]
      exact hx.room

/-- A path whose own filters are bare is connected, when it can begin and its end has room. -/
theorem path_free {e : Env} {p : Path} (hf : Fit e p) (hy : ∀ a b, e.hook a b = ⟨true, true, true⟩) {s : St} (hg : Good mr mw s)
    (hm : ∀ m ∈ p.mid, Bare s m) (hd : Takes s p.dst p.dstR) (hb : Begins s p.org p.orgW (p.mid.headD p.dst)) :
    ∃ t, connectPath e s p = .ok (t, true) := by
  obtain ⟨org, orgW, mid, dst, dstR⟩ := p
  obtain ⟨f1, f2, f3, f4, f5, f6, f7⟩ := hf
  simp only at f1 f2 f3 f4 hm hd hb
  unfold connectPath
  cases mid with
  | nil =>
    obtain ⟨t, h, _⟩ := head_free (h := e.hook org dst) (r := dstR) (r' := dstR) hg (f4 rfl) (hy _ _) f7 f7 hb hd hd.none
    exact ⟨t, h⟩
  | cons m ms =>
    have hne : org ≠ m := fun h => f2 (by rw [h]; exact List.mem_cons_self)
    have hbm := hm m List.mem_cons_self
    obtain ⟨t, h1, h2, h3, h4, h5, h6, h7⟩ := head_free (h := e.hook org m) (r := e.rid m) (r' := defaultId) hg hne (hy _ _) (f6 m) (by decide) hb (hbm.takes _) (hbm.takes _).none
    have hdm : dst ≠ m := fun h => f3 (by rw [h]; exact List.mem_cons_self)
    obtain ⟨t1, i1, i2, i3, i4, i5⟩ := inner_free hy f6 (dst := dst) (dstR := dstR) ms m h2 f1 f3
      (fun x hx => bare_mono (hm x (List.mem_cons_of_mem _ hx))
        (fun e he => (h6 e he).imp id fun h hh => (List.nodup_cons.1 f1).1 (by rw [← h, hh]; exact hx))
        (fun e he => (h5 e he).imp id fun h hh => f2 (by rw [← h, hh]; exact List.mem_cons_of_mem _ hx)) h3 h4)
      (fun e he => (h5 e he).elim (hbm.ws e) fun h hh => hne (h.symm.trans hh))
      (by rw [h4]; exact hbm.maxW) (h7 _ _ hdm hd)
    have hl : (m :: ms).getLast (by simp) ≠ dst := fun h => f3 (by rw [← h]; exact List.getLast_mem _)
    obtain ⟨w1, w2⟩ := free_writer i3 (e.wid ((m :: ms).getLast (by simp)))
    obtain ⟨c1, _⟩ := connect_free (x := e.wid ((m :: ms).getLast (by simp))) (y := dstR) (h := e.hook ((m :: ms).getLast (by simp)) dst) i2 hl (hy _ _) f7 w1 (by rw [w2]; exact i4) i5.none i5.room
    refine ⟨connected t1 ((m :: ms).getLast (by simp)) dst (e.wid ((m :: ms).getLast (by simp))) dstR, ?_⟩
    · simp only
      rw [h1]
      simp only [Outcome.bind_ok, if_true]
      rw [i1]
      simp only [Outcome.bind_ok, if_true]
      exact c1

/-! ### Deleting -/

/-- From `s` to `t` the readers in `R` and the writers in `W` are gone, and nothing else. -/
structure Cut (mr mw : Nat → Nat) (R W : Nat → Int → Prop) (s t : St) : Prop where
  good : Good mr mw t
  rs : ∀ e, e ∈ t.rs ↔ e ∈ s.rs ∧ ¬ R e.f e.id
  ws : ∀ e, e ∈ t.ws ↔ e ∈ s.ws ∧ ¬ W e.f e.id
  keep : ∀ u w v r, Joined s u w v r → ¬ W u w → ¬ R v r → Joined t u w v r
  back : ∀ u w v r, Joined t u w v r → Joined s u w v r

theorem Cut.trans {R W R' W' : Nat → Int → Prop} {s t u : St} (a : Cut mr mw R W s t) (b : Cut mr mw R' W' t u) :
    Cut mr mw (fun f i => R f i ∨ R' f i) (fun f i => W f i ∨ W' f i) s u :=
  ⟨b.good, fun e => by rw [b.rs, a.rs, not_or, and_assoc], fun e => by rw [b.ws, a.ws, not_or, and_assoc],
    fun u w v r h h1 h2 => b.keep _ _ _ _ (a.keep _ _ _ _ h (fun x => h1 (.inl x)) fun x => h2 (.inl x)) (fun x => h1 (.inr x)) fun x => h2 (.inr x),
    fun _ _ _ _ h => a.back _ _ _ _ (b.back _ _ _ _ h)⟩

theorem Cut.congr {R W R' W' : Nat → Int → Prop} {s t : St} (a : Cut mr mw R W s t) (h1 : ∀ e ∈ s.rs, R e.f e.id ↔ R' e.f e.id)
    (h2 : ∀ e ∈ s.ws, W e.f e.id ↔ W' e.f e.id) : Cut mr mw R' W' s t := by
  refine ⟨a.good, fun e => (a.rs e).trans ⟨fun ⟨x, y⟩ => ⟨x, fun z => y ((h1 e x).2 z)⟩, fun ⟨x, y⟩ => ⟨x, fun z => y ((h1 e x).1 z)⟩⟩,
    fun e => (a.ws e).trans ⟨fun ⟨x, y⟩ => ⟨x, fun z => y ((h2 e x).2 z)⟩, fun ⟨x, y⟩ => ⟨x, fun z => y ((h2 e x).1 z)⟩⟩, fun u w v r h x y => ?_, a.back⟩
  obtain ⟨q, o, j1, _, j3, _⟩ := id h
  exact a.keep _ _ _ _ h (fun z => x ((h2 _ j1).1 z)) fun z => y ((h1 _ j3).1 z)

theorem Cut.refl {s : St} (hg : Good mr mw s) : Cut mr mw (fun _ _ => False) (fun _ _ => False) s s :=
  ⟨hg, fun _ => by simp, fun _ => by simp, fun _ _ _ _ h _ _ => h, fun _ _ _ _ h => h⟩

theorem disconnectR_cut {s : St} (hg : Good mr mw s) (f : Nat) (id : Int) (d : Bool) :
    ∃ t b, disconnectReader s f id d = .ok (t, b) ∧ Cut mr mw (fun g i => g = f ∧ i = id) (fun _ _ => False) s t ∧
      (b = false → d = false ∧ ∃ e ∈ s.rs, e.f = f ∧ e.id = id) := by
  have hi := hg.inv
  have hr := hg.reg
  cases hf : findR s f id with
  | none =>
    have hn := findR_none hf
    refine ⟨s, true, by unfold disconnectReader; rw [hf], ⟨hg, fun e => ⟨fun h => ⟨h, hn e h⟩, And.left⟩, fun e => by simp, fun _ _ _ _ h _ _ => h, fun _ _ _ _ h => h⟩, fun h => (by cases h)⟩
  | some e =>
    obtain ⟨he, rfl, rfl⟩ := findR_some hf
    obtain ⟨f, id, ob⟩ := e
    cases ob with
    | none => exact absurd rfl (hg.nn _ he)
    | some o =>
      obtain ⟨t, h1, h2, h3, h4, _, h5, h6, h7⟩ := disconnectReader_reg hi hr he d
      obtain ⟨t', b', s1, s2⟩ := step_safe hi hg.nn (op := .disconnectR f id d) trivial
      have s1' : disconnectReader s f id d = .ok (t', b') := s1
      rw [h1] at s1'
      cases s1'
      have hm : ∀ e, e ∈ t.rs ↔ e ∈ s.rs ∧ ¬ (e.f = f ∧ e.id = id) := by intro e; rw [h3]; simp only [List.mem_filter, decide_eq_true_eq]
      have hgt : Good mr mw t := ⟨.step hg.reach (op := .disconnectR f id d) trivial s1, s2, fun e he => hg.ids e ((hm e).1 he).1⟩
      refine ⟨t, d, h1, ⟨hgt, hm, fun e => by rw [h4]; simp, ?_, ?_⟩, fun hd => ⟨hd, _, he, rfl, rfl⟩⟩
      rotate_left
      · rintro u w v r ⟨q, p, j1, _, j3, j4, j5⟩
        rw [h4] at j1
        exact joined_of hi j1 ((hm _).1 j3).1 ((h5 _ j3 p rfl).symm.trans j4) (hr.reg _ ((hm _).1 j3).1 p rfl).1
      rintro u w v r ⟨q, p, j1, _, j3, j4, j5⟩ _ hk
      have hmem := (hm _).2 ⟨j3, hk⟩
      refine joined_of hgt.inv (by rw [h4]; exact j1) hmem ((h5 _ hmem p rfl).trans j4) ?_
      exact (hgt.reg.reg _ hmem p rfl).1

theorem disconnectW_cut {s : St} (hg : Good mr mw s) (f : Nat) (id : Int) (d : Bool) :
    ∃ t b, disconnectWriter s f id d = .ok (t, b) ∧ Cut mr mw (fun _ _ => False) (fun g i => g = f ∧ i = id) s t := by
  obtain ⟨t, b, h1, h2, h3, h4, h5, _⟩ := disconnectWriter_ok hg.inv f id d
  have hgt : Good mr mw t := ⟨.step hg.reach (op := .disconnectW f id d) trivial h1, by unfold NoNull; rw [h4]; exact hg.nn, by rw [h4]; exact hg.ids⟩
  have hm : ∀ e, e ∈ t.ws ↔ e ∈ s.ws ∧ ¬ (e.f = f ∧ e.id = id) := by intro e; rw [h3]; simp only [List.mem_filter, decide_eq_true_eq]
  refine ⟨t, b, h1, ⟨hgt, fun e => by rw [h4]; simp, hm, ?_, ?_⟩⟩
  rotate_left
  · rintro u w v r ⟨q, p, j1, _, j3, j4, j5⟩
    rw [h4] at j3
    rw [h5] at j4 j5
    exact joined_of hg.inv ((hm _).1 j1).1 j3 j4 j5
  rintro u w v r ⟨q, p, j1, _, j3, j4, j5⟩ hk _
  exact joined_of hgt.inv ((hm _).2 ⟨j1, hk⟩) (by rw [h4]; exact j3) (by rw [h5]; exact j4) (by rw [h5]; exact j5)

/-- To a reader with an id that is not negative the destructor does what `disconnectReader` does. -/
theorem destroyR_eq {s : St} (hg : Good mr mw s) {e : RE} (he : e ∈ s.rs) :
    ∃ t, destroyR s e = .ok t ∧ disconnectReader s e.f e.id true = .ok (t, true) := by
  have hi := hg.inv
  obtain ⟨f, id, ob⟩ := e
  cases ob with
  | none => exact absurd rfl (hg.nn _ he)
  | some o =>
    have hfind := findR_of_mem hi he
    simp only at hfind
    have h0 : 0 ≤ id := hg.ids _ he
    obtain ⟨g1, g2⟩ := hg.reg.reg _ he o rfl
    obtain ⟨t1, b1, e1, hi1, r1, w1, q1, l1, m1, n1, k1, j1, x1, y1⟩ := rDisconnect_ok hi (o := o) ⟨_, he, rfl⟩ f
    obtain ⟨y2, y3, y4⟩ := y1 g1
    obtain ⟨t, d1, _⟩ := disconnectReader_reg hi hg.reg he true
    refine ⟨t, ?_, d1⟩
    have hb : b1 = true := by
      by_cases hnil : (t1.rdr o).filters = []
      · exact (y4 hnil).2.2 g2
      · exact (y3 hnil).2
    subst hb
    have hnf : f ∉ (t1.rdr o).filters := by rw [y2]; simp
    have h2 : rDisconnect t1 o f = .ok (t1, false) := by unfold rDisconnect; rw [if_neg hnf]
    have hfind1 : findR t1 f id = some ⟨f, id, some o⟩ := by unfold findR; rw [r1]; exact hfind
    unfold disconnectReader at d1
    rw [hfind] at d1
    simp only at d1
    rw [e1] at d1
    simp only [Outcome.bind_ok, if_true] at d1
    unfold deleteReader at d1
    rw [hfind1] at d1
    simp only at d1
    rw [h2] at d1
    simp only [Outcome.bind_ok] at d1
    unfold destroyR
    simp only
    rw [if_pos h0, e1]
    simp only [Outcome.map_ok, Outcome.bind_ok]
    cases hd : dropR t1 o f id with
    | ub => rw [hd] at d1; cases d1
    | hang => rw [hd] at d1; cases d1
    | ok u => rw [hd] at d1; cases d1; rfl

theorem destroyRs_cut : ∀ (l : List RE) {s : St}, Good mr mw s → (∀ e ∈ l, e ∈ s.rs) → (l.Pairwise fun a b => ¬ (a.f = b.f ∧ a.id = b.id)) →
    ∃ t, destroyRs s l = .ok t ∧ Cut mr mw (fun f i => ∃ e ∈ l, f = e.f ∧ i = e.id) (fun _ _ => False) s t := by
  intro l
  induction l with
  | nil => intro s hg _ _; exact ⟨s, rfl, (Cut.refl hg).congr (by simp) (by simp)⟩
  | cons e l ih =>
    intro s hg hl hp
    obtain ⟨t, d1, d2⟩ := destroyR_eq hg (hl e List.mem_cons_self)
    obtain ⟨t', b', c1, c2, _⟩ := disconnectR_cut hg e.f e.id true
    rw [d2] at c1
    cases c1
    obtain ⟨p1, p2⟩ := List.pairwise_cons.1 hp
    obtain ⟨u, i1, i2⟩ := ih (s := t) c2.good (fun x hx => (c2.rs x).2 ⟨hl x (List.mem_cons_of_mem _ hx), fun h => p1 x hx ⟨h.1.symm, h.2.symm⟩⟩) p2
    refine ⟨u, by unfold destroyRs; rw [d1]; exact i1, (c2.trans i2).congr (fun x _ => ?_) (by simp)⟩
    simp

theorem destroyWs_cut : ∀ (l : List WE) {s : St}, Good mr mw s → (∀ e ∈ l, e ∈ s.ws) → (l.Pairwise fun a b => ¬ (a.f = b.f ∧ a.id = b.id)) →
    ∃ t, destroyWs s l = .ok t ∧ Cut mr mw (fun _ _ => False) (fun f i => ∃ e ∈ l, f = e.f ∧ i = e.id) s t := by
  intro l
  induction l with
  | nil => intro s hg _ _; exact ⟨s, rfl, (Cut.refl hg).congr (by simp) (by simp)⟩
  | cons e l ih =>
    intro s hg hl hp
    obtain ⟨t, b, c1, c2⟩ := disconnectW_cut hg e.f e.id true
    have hd : dropW s e = .ok t := by
      unfold disconnectWriter at c1
      rw [findW_of_mem hg.inv (hl e List.mem_cons_self)] at c1
      simp only at c1
      cases hd : dropW s e with
      | ub => rw [hd] at c1; cases c1
      | hang => rw [hd] at c1; cases c1
      | ok u => rw [hd] at c1; cases c1; rfl
    obtain ⟨p1, p2⟩ := List.pairwise_cons.1 hp
    obtain ⟨u, i1, i2⟩ := ih (s := t) c2.good (fun x hx => (c2.ws x).2 ⟨hl x (List.mem_cons_of_mem _ hx), fun h => p1 x hx ⟨h.1.symm, h.2.symm⟩⟩) p2
    refine ⟨u, by unfold destroyWs; rw [hd]; exact i1, (c2.trans i2).congr (by simp) (fun x _ => ?_)⟩
    simp

theorem destroy_cut {s : St} (hg : Good mr mw s) (f : Nat) :
    ∃ t, destroy s f = .ok t ∧ Cut mr mw (fun g _ => g = f) (fun g _ => g = f) s t := by
  obtain ⟨t, h1, h2⟩ := destroyRs_cut (s.rs.filter fun e => e.f = f) hg
    (fun e he => (List.mem_filter.1 he).1) (hg.inv.rKey.filter _)
  obtain ⟨u, h3, h4⟩ := destroyWs_cut (t.ws.filter fun e => e.f = f) h2.good (fun e he => (List.mem_filter.1 he).1) (h2.good.inv.wKey.filter _)
  refine ⟨u, by unfold destroy; rw [h1]; exact h3, (h2.trans h4).congr (fun e he => ?_) (fun e he => ?_)⟩
  · constructor
    · rintro (⟨x, hx, h, _⟩ | h)
      · have := (List.mem_filter.1 hx).2
        simp only [decide_eq_true_eq] at this
        rw [h, this]
      · exact h.elim
    · intro h
      exact .inl ⟨e, List.mem_filter.2 ⟨he, by simpa using h⟩, rfl, rfl⟩
  · constructor
    · rintro (h | ⟨x, hx, h, _⟩)
      · exact h.elim
      · have := (List.mem_filter.1 hx).2
        simp only [decide_eq_true_eq] at this
        rw [h, this]
    · intro h
      exact .inr ⟨e, List.mem_filter.2 ⟨(h2.ws e).2 ⟨he, id⟩, by simpa using h⟩, rfl, rfl⟩

theorem dropMids_cut (d : Nat → Bool) : ∀ (l : List Nat) {s : St}, Good mr mw s →
    ∃ t, dropMids d s l = .ok t ∧ Cut mr mw (fun g _ => g ∈ l) (fun g _ => g ∈ l) s t := by
  intro l
  induction l with
  | nil => intro s hg; exact ⟨s, rfl, (Cut.refl hg).congr (by simp) (by simp)⟩
  | cons m l ih =>
    intro s hg
    obtain ⟨t1, b1, a1, a2, _⟩ := disconnectR_cut hg m defaultId (d m)
    obtain ⟨t2, b1, b2⟩ := destroy_cut a2.good m
    have a3 := a2.trans b2
    obtain ⟨t3, c1, c2⟩ := ih (s := t2) b2.good
    refine ⟨t3, by unfold dropMids; rw [a1]; simp only [Outcome.bind_ok]; rw [b1]; exact c1, (a3.trans c2).congr (fun e _ => ?_) (fun e _ => ?_)⟩
    · rw [List.mem_cons]
      constructor
      · rintro ((⟨h, _⟩ | h) | h)
        · exact .inl h
        · exact .inl h
        · exact .inr h
      · rintro (h | h)
        · exact .inl (.inr h)
        · exact .inr h
    · rw [List.mem_cons]
      simp

theorem maybe_cut {s : St} (hg : Good mr mw s) (f : Nat) (c : Bool) :
    ∃ t, (if c then destroy s f else .ok s) = .ok t ∧ Cut mr mw (fun g _ => c = true ∧ g = f) (fun g _ => c = true ∧ g = f) s t := by
  cases c with
  | false => exact ⟨s, rfl, (Cut.refl hg).congr (by simp) (by simp)⟩
  | true =>
    obtain ⟨t, h1, h2⟩ := destroy_cut hg f
    exact ⟨t, h1, h2.congr (by simp) (by simp)⟩

theorem delete_ok (d : Nat → Bool) (delDst delOrg : Bool) {s : St} (hg : Good mr mw s) (p : Path) :
    ∃ t b, deletePath d delDst delOrg s p = .ok (t, b) ∧ Good mr mw t ∧
      (b = true → Cut mr mw (fun f i => (f = p.dst ∧ i = p.dstR) ∨ Doomed p delDst delOrg f) (fun f _ => Doomed p delDst delOrg f) s t) ∧
      (b = false → d p.dst = false ∧ (∃ e ∈ s.rs, e.f = p.dst ∧ e.id = p.dstR) ∧
        Cut mr mw (fun f i => f = p.dst ∧ i = p.dstR) (fun _ _ => False) s t) := by
  obtain ⟨t1, b1, a1, a2, a3⟩ := disconnectR_cut hg p.dst p.dstR (d p.dst)
  unfold deletePath
  rw [a1]
  simp only [Outcome.bind_ok]
  cases b1 with
  | false => exact ⟨t1, false, by simp, a2.good, fun h => (by cases h), fun _ => ⟨(a3 rfl).1, (a3 rfl).2, a2⟩⟩
  | true =>
    obtain ⟨t2, b1, b2⟩ := dropMids_cut d p.mid.reverse a2.good
    have b3 := a2.trans b2
    obtain ⟨t3, c1, c2⟩ := maybe_cut b2.good p.dst delDst
    have c3 := b3.trans c2
    obtain ⟨t4, d1, d2⟩ := maybe_cut c2.good p.org delOrg
    have d3 := c3.trans d2
    refine ⟨t4, true, ?_, d2.good, fun _ => d3.congr (fun e _ => ?_) (fun e _ => ?_), fun h => (by cases h)⟩
    · simp only [if_true]
      rw [b1]
      simp only [Outcome.bind_ok]
      rw [c1]
      simp only [Outcome.bind_ok]
      rw [d1]
      rfl
    · simp only [Doomed, List.mem_reverse, or_assoc]
    · simp only [Doomed, List.mem_reverse, or_assoc, false_or]

end Lms.Paths
