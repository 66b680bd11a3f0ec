import Verif.FilterConn.Lemmas

/-!
# Every operation keeps the connections in order
-/

namespace Lms.FilterConn

/-- No filter keeps a null reader. -/
def NoNull (s : St) : Prop := ∀ e ∈ s.rs, e.obj ≠ none

theorem sizeW_count (s : St) (f : Nat) : sizeW s f = s.ws.countP (fun e => e.f = f) := (List.countP_eq_length_filter ..).symm
theorem sizeR_count (s : St) (f : Nat) : sizeR s f = s.rs.countP (fun e => e.f = f) := (List.countP_eq_length_filter ..).symm

theorem findR_iff {s : St} {f : Nat} {id : Int} : (findR s f id).isSome = true ↔ ∃ e ∈ s.rs, e.f = f ∧ e.id = id := by
  simp [findR]

theorem findW_iff {s : St} {f : Nat} {id : Int} : (findW s f id).isSome = true ↔ ∃ e ∈ s.ws, e.f = f ∧ e.id = id := by
  simp [findW]

theorem busy_ok {s : St} (hi : Inv s) (f : Nat) (id : Int) :
    ∃ b, busy s f id = .ok b ∧ (b = true → (findR s f id).isSome = true) := by
  unfold busy
  cases h : findR s f id with
  | none => exact ⟨false, rfl, fun h => by cases h⟩
  | some e =>
    obtain ⟨f', id', o⟩ := e
    cases o with
    | none => exact ⟨false, rfl, fun h => by cases h⟩
    | some o =>
      obtain ⟨hm, _⟩ := findR_some h
      obtain ⟨b, hb, _⟩ := rConnected_ok hi (o := o) ⟨_, hm, rfl⟩
      exact ⟨b, hb, fun _ => rfl⟩

/-- A queue is made and nobody keeps it. -/
def loseQ (s : St) (w : Nat) (wid : Int) : St :=
  { s with nextQ := s.nextQ + 1, cell := upd s.cell s.nextQ (.live false w wid), lost := s.nextQ :: s.lost }

/-- The same, and the reading filter keeps a null entry. -/
def loseNull (s : St) (w r : Nat) (wid rid : Int) : St := { loseQ s w wid with rs := s.rs ++ [⟨r, rid, none⟩] }

/-- Everything that `connect` can do. -/
theorem connect_ok {s : St} (hi : Inv s) {w r : Nat} (wid rid : Int) (a : Hooks) (hne : w ≠ r) :
    ∃ t b, connect s w r wid rid a = .ok (t, b) ∧
      ((b = true ∧ t = connected s w r wid rid ∧ sizeW s w < s.maxW w ∧ findW s w wid = none ∧ a = ⟨true, true, true⟩ ∧
          sizeR s r < s.maxR r ∧ findR s r rid = none) ∨
       (b = false ∧
         (t = s ∧ (s.maxW w ≤ sizeW s w ∨ (findW s w wid).isSome = true ∨ a.wcfg = false ∨ a.alloc = false ∨ (findR s r rid).isSome = true)) ∨
       (b = false ∧ t = loseQ s w wid ∧ a.wcfg = true ∧ a.alloc = true ∧ sizeW s w < s.maxW w ∧ findW s w wid = none ∧
          (s.maxR r ≤ sizeR s r ∨ (findR s r rid).isSome = true)) ∨
       (b = false ∧ t = loseNull s w r wid rid ∧ a = ⟨true, true, false⟩ ∧ sizeW s w < s.maxW w ∧ findW s w wid = none ∧
          sizeR s r < s.maxR r ∧ findR s r rid = none))) := by
  obtain ⟨b, hb, hbs⟩ := busy_ok hi r rid
  obtain ⟨a1, a2, a3⟩ := a
  unfold connect
  rw [if_neg hne, hb]
  simp only [Outcome.bind_ok]
  by_cases h1 : b = true
  · rw [if_pos h1]; exact ⟨_, _, rfl, .inr (.inl ⟨rfl, rfl, .inr (.inr (.inr (.inr (hbs h1))))⟩)⟩
  · rw [if_neg h1]
    by_cases h2 : s.maxW w ≤ sizeW s w
    · rw [if_pos h2]; exact ⟨_, _, rfl, .inr (.inl ⟨rfl, rfl, .inl h2⟩)⟩
    · rw [if_neg h2]
      by_cases h3 : (findW s w wid).isSome = true
      · rw [if_pos h3]; exact ⟨_, _, rfl, .inr (.inl ⟨rfl, rfl, .inr (.inl h3)⟩)⟩
      · rw [if_neg h3]
        by_cases h4 : a1 = false
        · rw [if_pos h4]; exact ⟨_, _, rfl, .inr (.inl ⟨rfl, rfl, .inr (.inr (.inl h4))⟩)⟩
        · rw [if_neg h4]
          by_cases h5 : a2 = false
          · rw [if_pos h5]; exact ⟨_, _, rfl, .inr (.inl ⟨rfl, rfl, .inr (.inr (.inr (.inl h5)))⟩)⟩
          · rw [if_neg h5]
            by_cases h6 : s.maxR r ≤ sizeR s r ∨ (findR s r rid).isSome = true
            · rw [if_pos h6]
              refine ⟨_, _, rfl, .inr (.inr (.inl ⟨rfl, rfl, by simpa using h4, by simpa using h5, by omega, findW_isSome_false h3, h6⟩))⟩
            · rw [if_neg h6]
              have h7 : sizeR s r < s.maxR r := by
                rcases Nat.lt_or_ge (sizeR s r) (s.maxR r) with h | h
                · exact h
                · exact absurd (.inl h) h6
              have h8 : findR s r rid = none := findR_isSome_false fun h => h6 (.inr h)
              cases a1 with
              | false => exact absurd rfl h4
              | true =>
              cases a2 with
              | false => exact absurd rfl h5
              | true =>
              cases a3 with
              | false =>
                rw [if_pos rfl]
                exact ⟨_, _, rfl, .inr (.inr (.inr ⟨rfl, rfl, rfl, by omega, findW_isSome_false h3, h7, h8⟩))⟩
              | true =>
                rw [if_neg (by decide)]
                exact ⟨_, _, rfl, .inl ⟨rfl, rfl, by omega, findW_isSome_false h3, rfl, h7, h8⟩⟩

theorem loseNull_inv {s : St} (hi : Inv s) {w r : Nat} (wid : Int) {rid : Int} (h : findR s r rid = none) : Inv (loseNull s w r wid rid) :=
  nullEntry_inv (lose_inv hi w wid) h

theorem connect_inv {s t : St} {w r : Nat} {wid rid : Int} {a : Hooks} {b : Bool} (h : connect s w r wid rid a = .ok (t, b)) (hi : Inv s) : Inv t := by
  by_cases hne : w = r
  · unfold connect at h; rw [if_pos hne] at h; cases h
  · obtain ⟨t', b', e, hc⟩ := connect_ok hi wid rid a hne
    rw [e] at h; cases h
    rcases hc with ⟨_, rfl, h1, h2, _, _, h3⟩ | ⟨_, rfl, _⟩ | ⟨_, rfl, _⟩ | ⟨_, rfl, _, _, _, _, h3⟩
    · exact connected_inv hi h3 h2 h1
    · exact hi
    · exact lose_inv hi w wid
    · exact loseNull_inv hi wid h3

theorem disconnectWriter_ok {s : St} (hi : Inv s) (f : Nat) (id : Int) (d : Bool) :
    ∃ t b, disconnectWriter s f id d = .ok (t, b) ∧ Inv t ∧ t.ws = s.ws.filter (fun x => ¬ (x.f = f ∧ x.id = id)) ∧ t.rs = s.rs ∧ t.rdr = s.rdr ∧
      t.lost = s.lost ∧ t.maxR = s.maxR ∧ t.maxW = s.maxW ∧ t.nextQ = s.nextQ ∧ t.nextR = s.nextR ∧
      (b = if ∃ e ∈ s.ws, e.f = f ∧ e.id = id then d else true) := by
  unfold disconnectWriter
  cases h : findW s f id with
  | none =>
    have hn := findW_none h
    refine ⟨s, true, rfl, hi, ?_, rfl, rfl, rfl, rfl, rfl, rfl, rfl, ?_⟩
    · exact (List.filter_eq_self.2 fun e he => decide_eq_true (hn e he)).symm
    · rw [if_neg]; rintro ⟨e, he, hc⟩; exact hn e he hc
  | some e =>
    obtain ⟨hm, hf, hid⟩ := findW_some h
    obtain ⟨t, h1, h2, h3, h4, h5, h6, h7, h8, h9, h10⟩ := dropW_ok hi hm
    refine ⟨t, d, by simp only [h1, Outcome.map_ok], h2, by rw [h3, hf, hid], h4, h5, h6, h7, h8, h9, h10, ?_⟩
    rw [if_pos ⟨e, hm, hf, hid⟩]

/-- `disconnectReader` of an entry that holds a reader. -/
theorem disconnectReader_ok {s : St} (hi : Inv s) {o f : Nat} {id : Int} (he : (⟨f, id, some o⟩ : RE) ∈ s.rs) (d : Bool) :
    ∃ t b, disconnectReader s f id d = .ok (t, b) ∧ Inv t ∧ (t.rs = (eraseR s f id).rs ∨ t.rs = s.rs) ∧ t.ws = s.ws ∧
      t.lost = s.lost ∧ t.maxR = s.maxR ∧ t.maxW = s.maxW ∧ t.nextQ = s.nextQ ∧ t.nextR = s.nextR := by
  have hfind := findR_of_mem hi he
  simp only at hfind
  unfold disconnectReader
  rw [hfind]
  simp only
  obtain ⟨t1, b1, e1, hi1, r1, w1, q1, l1, m1, n1, k1, j1, x1, y1⟩ := rDisconnect_ok hi (o := o) ⟨_, he, rfl⟩ f
  rw [e1]
  simp only [Outcome.bind_ok]
  cases b1 with
  | false => exact ⟨t1, false, rfl, hi1, .inr r1, w1, l1, m1, n1, k1, j1⟩
  | true =>
    obtain ⟨t2, e2, hi2, r2, w2, _, l2, m2, n2, k2, j2, _⟩ := deleteReader_ok hi1 (o := o) (f := f) (id := id) (by rw [r1]; exact he) d
    refine ⟨t2, d, by rw [if_pos rfl]; exact e2, hi2, .inl ?_, w2.trans w1, l2.trans l1, m2.trans m1, n2.trans n1, k2.trans k1, j2.trans j1⟩
    rw [r2]; show t1.rs.filter _ = s.rs.filter _; rw [r1]

theorem filter_mem_iff {s : St} {f : Nat} {id : Int} (e : RE) : e ∈ (eraseR s f id).rs ↔ e ∈ s.rs ∧ ¬ (e.f = f ∧ e.id = id) := by
  simp only [eraseR, List.mem_filter, decide_eq_true_eq]

/-- A round removes exactly the writers whose queue has no reader any more. -/
theorem sweepList_ok : ∀ (l : List WE) (s : St), Inv s → (∀ e ∈ l, e ∈ s.ws) → (l.Pairwise fun a b => ¬ (a.f = b.f ∧ a.id = b.id)) →
    ∃ t, sweepList s l = .ok t ∧ Inv t ∧ (∀ e, e ∈ t.ws ↔ e ∈ s.ws ∧ (e ∈ l → hasR s e.q)) ∧ t.rs = s.rs ∧ t.rdr = s.rdr ∧ t.lost = s.lost ∧
      t.maxR = s.maxR ∧ t.maxW = s.maxW ∧ t.nextQ = s.nextQ ∧ t.nextR = s.nextR := by
  intro l
  induction l with
  | nil => intro s hi _ _; exact ⟨s, rfl, hi, fun e => ⟨fun h => ⟨h, fun h => by cases h⟩, And.left⟩, rfl, rfl, rfl, rfl, rfl, rfl, rfl⟩
  | cons x l ih =>
    intro s hi hl hp
    obtain ⟨hx, hp⟩ := List.pairwise_cons.1 hp
    have hxm := hl x (List.mem_cons_self ..)
    obtain ⟨c, hc, hcr⟩ := qConnected_ok hi hxm
    unfold sweepList
    rw [hc]
    simp only [Outcome.bind_ok]
    cases c with
    | true =>
      rw [if_pos rfl]
      obtain ⟨t, h1, h2, h3, h4⟩ := ih s hi (fun e he => hl e (List.mem_cons_of_mem _ he)) hp
      refine ⟨t, h1, h2, fun e => ?_, h4⟩
      rw [h3]
      constructor
      · rintro ⟨a, b⟩
        refine ⟨a, fun h => ?_⟩
        rcases List.mem_cons.1 h with rfl | h
        · exact hcr.1 rfl
        · exact b h
      · rintro ⟨a, b⟩; exact ⟨a, fun h => b (List.mem_cons_of_mem _ h)⟩
    | false =>
      rw [if_neg (by decide)]
      have hnr : ¬ hasR s x.q := fun h => by cases hcr.2 h
      obtain ⟨s1, e1, i1, w1, r1, d1, l1, m1, n1, k1, j1⟩ := dropW_ok hi hxm
      rw [e1]
      simp only [Outcome.bind_ok]
      have hw1 : ∀ e, e ∈ s1.ws ↔ e ∈ s.ws ∧ ¬ (e.f = x.f ∧ e.id = x.id) := by
        intro e; rw [w1]; simp only [List.mem_filter, decide_eq_true_eq]
      have hR : ∀ q, hasR s1 q ↔ hasR s q := by intro q; unfold hasR held; rw [r1, d1]
      obtain ⟨t, h1, h2, h3, h4, h5, h6, h7, h8, h9, h10⟩ := ih s1 i1 (fun e he => (hw1 e).2 ⟨hl e (List.mem_cons_of_mem _ he), fun h => hx e he ⟨h.1.symm, h.2.symm⟩⟩) hp
      refine ⟨t, h1, h2, fun e => ?_, h4.trans r1, h5.trans d1, h6.trans l1, h7.trans m1, h8.trans n1, h9.trans k1, h10.trans j1⟩
      rw [h3, hw1]
      constructor
      · rintro ⟨⟨a, b⟩, c⟩
        refine ⟨a, fun h => ?_⟩
        rcases List.mem_cons.1 h with rfl | h
        · exact absurd ⟨rfl, rfl⟩ b
        · exact (hR _).1 (c h)
      · rintro ⟨a, b⟩
        refine ⟨⟨a, fun h => ?_⟩, fun h => (hR _).2 (b (List.mem_cons_of_mem _ h))⟩
        rw [hi.wUnique a hxm h] at b
        exact hnr (b (List.mem_cons_self ..))

theorem sweepW_ok {s : St} (hi : Inv s) (f : Nat) :
    ∃ t, sweepW s f = .ok t ∧ Inv t ∧ (∀ e, e ∈ t.ws ↔ e ∈ s.ws ∧ (e.f = f → hasR s e.q)) ∧ t.rs = s.rs ∧ t.rdr = s.rdr ∧ t.lost = s.lost ∧
      t.maxR = s.maxR ∧ t.maxW = s.maxW ∧ t.nextQ = s.nextQ ∧ t.nextR = s.nextR := by
  obtain ⟨t, h1, h2, h3, h4⟩ := sweepList_ok (s.ws.filter fun e => e.f = f) s hi (fun e he => (List.mem_filter.1 he).1) (hi.wKey.filter _)
  refine ⟨t, h1, h2, fun e => ?_, h4⟩
  rw [h3]
  simp only [List.mem_filter, decide_eq_true_eq]
  exact ⟨fun ⟨a, b⟩ => ⟨a, fun h => b ⟨a, h⟩⟩, fun ⟨a, b⟩ => ⟨a, fun h => b h.2⟩⟩

/-- Reader `o` has a queue with a writer. -/
def fed (s : St) (o : Nat) : Prop := ∃ q, (s.rdr o).queue = some q ∧ hasW s q

/-- A round removes exactly the readers whose queue has no writer any more. -/
theorem sweepListR_ok (strict : Bool) : ∀ (l : List RE) (s : St), Inv s → (∀ e ∈ l, e ∈ s.rs) → (l.Pairwise fun a b => ¬ (a.f = b.f ∧ a.id = b.id)) →
    (strict = true → ∀ e ∈ l, e.obj ≠ none) →
    ∃ t, sweepListR s strict l = .ok t ∧ Inv t ∧ (∀ e, e ∈ t.rs ↔ e ∈ s.rs ∧ (e ∈ l → ∀ o, e.obj = some o → fed s o)) ∧ t.ws = s.ws ∧ t.lost = s.lost ∧
      t.maxR = s.maxR ∧ t.maxW = s.maxW ∧ t.nextQ = s.nextQ ∧ t.nextR = s.nextR ∧ t.rs.Sublist s.rs := by
  intro l
  induction l with
  | nil => intro s hi _ _ _; exact ⟨s, rfl, hi, fun e => ⟨fun h => ⟨h, fun h => by cases h⟩, And.left⟩, rfl, rfl, rfl, rfl, rfl, rfl, List.Sublist.refl _⟩
  | cons x l ih =>
    intro s hi hl hp hs
    obtain ⟨hx, hpl⟩ := List.pairwise_cons.1 hp
    have hxm := hl x (List.mem_cons_self ..)
    obtain ⟨f, id, ob⟩ := x
    cases ob with
    | none =>
      unfold sweepListR
      cases strict with
      | true => exact absurd rfl (hs rfl _ (List.mem_cons_self ..))
      | false =>
        rw [if_neg (by decide)]
        obtain ⟨t, h1, h2, h3, h4⟩ := ih s hi (fun e he => hl e (List.mem_cons_of_mem _ he)) hpl (fun h => by cases h)
        refine ⟨t, h1, h2, fun e => ?_, h4⟩
        rw [h3]
        constructor
        · rintro ⟨a, b⟩
          refine ⟨a, fun h o ho => ?_⟩
          rcases List.mem_cons.1 h with rfl | h
          · cases ho
          · exact b h o ho
        · rintro ⟨a, b⟩; exact ⟨a, fun h => b (List.mem_cons_of_mem _ h)⟩
    | some o =>
      obtain ⟨c, hc, hcr⟩ := rConnected_ok hi (o := o) ⟨_, hxm, rfl⟩
      unfold sweepListR
      rw [hc]
      simp only [Outcome.bind_ok]
      cases c with
      | true =>
        rw [if_pos rfl]
        obtain ⟨t, h1, h2, h3, h4⟩ := ih s hi (fun e he => hl e (List.mem_cons_of_mem _ he)) hpl (fun h e he => hs h e (List.mem_cons_of_mem _ he))
        refine ⟨t, h1, h2, fun e => ?_, h4⟩
        rw [h3]
        constructor
        · rintro ⟨a, b⟩
          refine ⟨a, fun h p hp => ?_⟩
          rcases List.mem_cons.1 h with rfl | h
          · cases hp; exact hcr.1 rfl
          · exact b h p hp
        · rintro ⟨a, b⟩; exact ⟨a, fun h => b (List.mem_cons_of_mem _ h)⟩
      | false =>
        rw [if_neg (by decide)]
        have hnf : ¬ fed s o := fun h => by cases hcr.2 h
        obtain ⟨s1, e1, i1, r1, w1, d1, l1, m1, n1, k1, j1, q1, _⟩ := deleteReader_ok hi hxm true
        rw [e1]
        simp only [Outcome.bind_ok]
        have hr1 : ∀ e, e ∈ s1.rs ↔ e ∈ s.rs ∧ ¬ (e.f = f ∧ e.id = id) := by intro e; rw [r1]; exact filter_mem_iff e
        have hW : ∀ q, hasW s1 q ↔ hasW s q := by intro q; unfold hasW; rw [w1]
        have hF : ∀ p, fed s1 p ↔ fed s p := by
          intro p
          by_cases hpo : p = o
          · subst hpo
            refine ⟨fun ⟨q, a, b⟩ => ?_, fun h => absurd h hnf⟩
            rcases q1 with q1 | q1
            · rw [q1] at a; exact ⟨q, a, (hW q).1 b⟩
            · rw [q1] at a; cases a
          · unfold fed; rw [d1 p hpo]; exact ⟨fun ⟨q, a, b⟩ => ⟨q, a, (hW q).1 b⟩, fun ⟨q, a, b⟩ => ⟨q, a, (hW q).2 b⟩⟩
        obtain ⟨t, h1, h2, h3, h4, h5, h6, h7, h8, h9, h10⟩ := ih s1 i1
          (fun e he => (hr1 e).2 ⟨hl e (List.mem_cons_of_mem _ he), fun h => hx e he ⟨h.1.symm, h.2.symm⟩⟩) hpl (fun h e he => hs h e (List.mem_cons_of_mem _ he))
        refine ⟨t, h1, h2, fun e => ?_, h4.trans w1, h5.trans l1, h6.trans m1, h7.trans n1, h8.trans k1, h9.trans j1, h10.trans (by rw [r1]; exact List.filter_sublist)⟩
        rw [h3, hr1]
        constructor
        · rintro ⟨⟨a, b⟩, c⟩
          refine ⟨a, fun h p hp => ?_⟩
          rcases List.mem_cons.1 h with rfl | h
          · exact absurd ⟨rfl, rfl⟩ b
          · exact (hF p).1 (c h p hp)
        · rintro ⟨a, b⟩
          refine ⟨⟨a, fun h => ?_⟩, fun h p hp => (hF p).2 (b (List.mem_cons_of_mem _ h) p hp)⟩
          rw [hi.rUnique a hxm h] at b
          exact hnf (b (List.mem_cons_self ..) o rfl)

theorem sweepR_ok {s : St} (hi : Inv s) (f : Nat) (strict : Bool) (hs : strict = true → ∀ e ∈ s.rs, e.f = f → e.obj ≠ none) :
    ∃ t, sweepR s f strict = .ok t ∧ Inv t ∧ (∀ e, e ∈ t.rs ↔ e ∈ s.rs ∧ (e.f = f → ∀ o, e.obj = some o → fed s o)) ∧ t.ws = s.ws ∧ t.lost = s.lost ∧
      t.maxR = s.maxR ∧ t.maxW = s.maxW ∧ t.nextQ = s.nextQ ∧ t.nextR = s.nextR ∧ t.rs.Sublist s.rs := by
  obtain ⟨t, h1, h2, h3, h4⟩ := sweepListR_ok strict (s.rs.filter fun e => e.f = f) s hi (fun e he => (List.mem_filter.1 he).1) (hi.rKey.filter _)
    (fun h e he => hs h e (List.mem_filter.1 he).1 (by simpa using (List.mem_filter.1 he).2))
  refine ⟨t, h1, h2, fun e => ?_, h4⟩
  rw [h3]
  simp only [List.mem_filter, decide_eq_true_eq]
  exact ⟨fun ⟨a, b⟩ => ⟨a, fun h => b ⟨a, h⟩⟩, fun ⟨a, b⟩ => ⟨a, fun h => b h.2⟩⟩

theorem sweepListR_ub {s : St} : ∀ (l : List RE), (∃ e ∈ l, e.obj = none) → Inv s → (∀ e ∈ l, e ∈ s.rs) →
    (l.Pairwise fun a b => ¬ (a.f = b.f ∧ a.id = b.id)) → sweepListR s true l = .ub := by
  intro l
  induction l generalizing s with
  | nil => rintro ⟨e, he, _⟩; cases he
  | cons x l ih =>
    intro hex hi hl hp
    obtain ⟨hx, hpl⟩ := List.pairwise_cons.1 hp
    have hxm := hl x (List.mem_cons_self ..)
    obtain ⟨f, id, ob⟩ := x
    cases ob with
    | none => unfold sweepListR; rw [if_pos rfl]
    | some o =>
      have hex' : ∃ e ∈ l, e.obj = none := by
        obtain ⟨e, he, ho⟩ := hex
        rcases List.mem_cons.1 he with rfl | he
        · cases ho
        · exact ⟨e, he, ho⟩
      obtain ⟨c, hc, hcr⟩ := rConnected_ok hi (o := o) ⟨_, hxm, rfl⟩
      unfold sweepListR
      rw [hc]
      simp only [Outcome.bind_ok]
      cases c with
      | true => rw [if_pos rfl]; exact ih hex' hi (fun e he => hl e (List.mem_cons_of_mem _ he)) hpl
      | false =>
        rw [if_neg (by decide)]
        obtain ⟨s1, e1, i1, r1, _⟩ := deleteReader_ok hi hxm true
        rw [e1]
        simp only [Outcome.bind_ok]
        refine ih hex' i1 (fun e he => ?_) hpl
        rw [r1, filter_mem_iff]
        exact ⟨hl e (List.mem_cons_of_mem _ he), fun h => hx e he ⟨h.1.symm, h.2.symm⟩⟩

/-- The state after a reader was shared. -/
theorem share_ok {s : St} (hi : Inv s) (f g : Nat) (gid fid : Int) (rcfg : Bool)
    (h1 : ∀ e ∈ s.rs, e.f = f ∧ e.id = fid → e.obj ≠ none) (h2 : ∀ e ∈ s.rs, e.f = g ∧ e.id = gid → e.obj ≠ none) :
    ∃ t b, share s f g gid fid rcfg = .ok (t, b) ∧
      ((b = false ∧ t = s ∧ (f = g ∨ (∀ e ∈ s.rs, e.f = f ∧ e.id = fid → ∀ o, e.obj = some o → ¬ fed s o) ∨
          (∃ e ∈ s.rs, e.f = g ∧ e.id = gid ∧ ∃ o, e.obj = some o ∧ fed s o) ∨ rcfg = false)) ∨
       (b = true ∧ f ≠ g ∧ rcfg = true ∧ (∀ e ∈ s.rs, e.f = g ∧ e.id = gid → ∀ o, e.obj = some o → ¬ fed s o) ∧ Inv t ∧
        ∃ o, ⟨f, fid, some o⟩ ∈ s.rs ∧ fed s o ∧ t.rs = (eraseR s g gid).rs ++ [⟨g, gid, some o⟩] ∧
          t.ws = s.ws ∧ t.lost = s.lost ∧ t.maxR = s.maxR ∧ t.maxW = s.maxW ∧ t.nextQ = s.nextQ ∧ t.nextR = s.nextR ∧
          (t.rdr o).queue = (s.rdr o).queue ∧
          (t.rdr o).filters = (if g ∈ (s.rdr o).filters then (s.rdr o).filters else (s.rdr o).filters ++ [g]) ∧
          ∀ p, p ≠ o → held (eraseR s g gid) p → t.rdr p = s.rdr p)) := by
  unfold share
  by_cases hfg : f = g
  · rw [if_pos hfg]; exact ⟨s, false, rfl, .inl ⟨rfl, rfl, .inl hfg⟩⟩
  rw [if_neg hfg]
  cases hff : findR s f fid with
  | none => exact ⟨s, false, rfl, .inl ⟨rfl, rfl, .inr (.inl fun e he hc => absurd hc (findR_none hff e he))⟩⟩
  | some e =>
    obtain ⟨hem, hef, heid⟩ := findR_some hff
    obtain ⟨f', id', ob⟩ := e
    simp only at hef heid
    subst hef heid
    cases ob with
    | none => exact absurd rfl (h1 _ hem ⟨rfl, rfl⟩)
    | some o =>
      simp only
      obtain ⟨c, hc, hcr⟩ := rConnected_ok hi (o := o) ⟨_, hem, rfl⟩
      rw [hc]
      simp only [Outcome.bind_ok]
      cases c with
      | false =>
        rw [if_pos rfl]
        refine ⟨s, false, rfl, .inl ⟨rfl, rfl, .inr (.inl fun e he hc p hp hfed => ?_)⟩⟩
        rw [hi.rUnique he hem hc] at hp
        cases hp
        cases hcr.2 hfed
      | true =>
        rw [if_neg (by decide)]
        have hfed : fed s o := hcr.1 rfl
        have hgo : ∀ (hno : ∀ e ∈ s.rs, e.f = g ∧ e.id = gid → ∀ o, e.obj = some o → ¬ fed s o) (hr : rcfg = true),
            ∃ t b, (assignR s g gid o).map (fun s' => (addReader s' o g, true)) = .ok (t, b) ∧ b = true ∧ Inv t ∧
            t.rs = (eraseR s g gid).rs ++ [⟨g, gid, some o⟩] ∧
            t.ws = s.ws ∧ t.lost = s.lost ∧ t.maxR = s.maxR ∧ t.maxW = s.maxW ∧ t.nextQ = s.nextQ ∧ t.nextR = s.nextR ∧
            (t.rdr o).queue = (s.rdr o).queue ∧
            (t.rdr o).filters = (if g ∈ (s.rdr o).filters then (s.rdr o).filters else (s.rdr o).filters ++ [g]) ∧
            ∀ p, p ≠ o → held (eraseR s g gid) p → t.rdr p = s.rdr p := by
          intro hno hr
          have hkeep : (⟨f', id', some o⟩ : RE) ∈ (eraseR s g gid).rs := (filter_mem_iff _).2 ⟨hem, fun h => hfg h.1⟩
          have key : ∃ u, assignR s g gid o = .ok { u with rs := u.rs ++ [⟨g, gid, some o⟩] } ∧ Inv u ∧ u.rs = (eraseR s g gid).rs ∧ u.ws = s.ws ∧
              u.lost = s.lost ∧ u.maxR = s.maxR ∧ u.maxW = s.maxW ∧ u.nextQ = s.nextQ ∧ u.nextR = s.nextR ∧ u.rdr o = s.rdr o ∧
              (∀ p, p ≠ o → held (eraseR s g gid) p → u.rdr p = s.rdr p) := by
            unfold assignR
            cases hg : findR s g gid with
            | none =>
              refine ⟨eraseR s g gid, rfl, eraseR_inv hi fun e he hc => absurd hc (findR_none hg e he), rfl, rfl, rfl, rfl, rfl, rfl, rfl, rfl, fun _ _ _ => rfl⟩
            | some x =>
              obtain ⟨hxm, hxf, hxid⟩ := findR_some hg
              obtain ⟨xf, xid, xo⟩ := x
              simp only at hxf hxid
              subst hxf hxid
              cases xo with
              | none => exact absurd rfl (h2 _ hxm ⟨rfl, rfl⟩)
              | some p =>
                have hpo : o ≠ p := by rintro rfl; exact hno _ hxm ⟨rfl, rfl⟩ o rfl hfed
                obtain ⟨u, u1, u2, u3, u4, u5, u6, u7, u8, u9, u10, u11, u12⟩ := dropR_ok hi hxm
                refine ⟨u, by simp only [u1, Outcome.map_ok], u2, u3, u4, u6, u7, u8, u9, u10, u5 o hpo, fun x hx hh => ?_⟩
                by_cases hxp : x = p
                · subst hxp; rw [u11 hh]
                · exact u5 x hxp
          obtain ⟨u, u1, u2, u3, u4, u5, u6, u7, u8, u9, u10, u11⟩ := key
          rw [u1]
          simp only [Outcome.map_ok]
          have hi2 : Inv { u with rs := u.rs ++ [⟨g, gid, some o⟩] } := by
            refine shareEntry_inv u2 ?_ ⟨_, by rw [u3]; exact hkeep, rfl⟩
            intro e he; rw [u3] at he; exact ((filter_mem_iff e).1 he).2
          unfold addReader
          simp only [u10]
          by_cases hmem : g ∈ (s.rdr o).filters
          · rw [if_pos hmem]
            refine ⟨_, true, rfl, rfl, hi2, by rw [u3], u4, u5, u6, u7, u8, u9, by rw [u10], by rw [u10, if_pos hmem], u11⟩
          · rw [if_neg hmem]
            refine ⟨_, true, rfl, rfl, ?_, by rw [u3], u4, u5, u6, u7, u8, u9, by simp only [upd_same], by simp only [upd_same]; rw [if_neg hmem], fun p hp hh => ?_⟩
            · have := filters_inv hi2 o ((s.rdr o).filters ++ [g])
              simp only [u10] at this
              exact this
            · simp only [upd_other _ _ hp]; exact u11 p hp hh
        unfold isRConnected
        cases hg : findR s g gid with
        | none =>
          simp only [Outcome.bind_ok]
          rw [if_neg (by decide)]
          cases rcfg with
          | false => rw [if_pos rfl]; exact ⟨s, false, rfl, .inl ⟨rfl, rfl, .inr (.inr (.inr rfl))⟩⟩
          | true =>
            rw [if_neg (by decide)]
            have hno : ∀ e ∈ s.rs, e.f = g ∧ e.id = gid → ∀ o, e.obj = some o → ¬ fed s o := fun e he hc => absurd hc (findR_none hg e he)
            obtain ⟨t, b, a1, a2, a3, a4⟩ := hgo hno rfl
            exact ⟨t, b, a1, .inr ⟨a2, hfg, rfl, hno, a3, o, hem, hfed, a4⟩⟩
        | some x =>
          obtain ⟨hxm, hxf, hxid⟩ := findR_some hg
          obtain ⟨xf, xid, xo⟩ := x
          simp only at hxf hxid
          subst hxf hxid
          cases xo with
          | none => exact absurd rfl (h2 _ hxm ⟨rfl, rfl⟩)
          | some p =>
            simp only
            obtain ⟨c', hc', hcr'⟩ := rConnected_ok hi (o := p) ⟨_, hxm, rfl⟩
            rw [hc']
            simp only [Outcome.bind_ok]
            cases c' with
            | true => rw [if_pos rfl]; exact ⟨s, false, rfl, .inl ⟨rfl, rfl, .inr (.inr (.inl ⟨_, hxm, rfl, rfl, p, rfl, hcr'.1 rfl⟩))⟩⟩
            | false =>
              rw [if_neg (by decide)]
              cases rcfg with
              | false => rw [if_pos rfl]; exact ⟨s, false, rfl, .inl ⟨rfl, rfl, .inr (.inr (.inr rfl))⟩⟩
              | true =>
                rw [if_neg (by decide)]
                have hno : ∀ e ∈ s.rs, e.f = xf ∧ e.id = xid → ∀ o, e.obj = some o → ¬ fed s o := by
                  intro e he hc q hq hfq
                  rw [hi.rUnique he hxm hc] at hq
                  cases hq
                  cases hcr'.2 hfq
                obtain ⟨t, b, a1, a2, a3, a4⟩ := hgo hno rfl
                exact ⟨t, b, a1, .inr ⟨a2, hfg, rfl, hno, a3, o, hem, hfed, a4⟩⟩

end Lms.FilterConn
