import Verif.Sessions.Model

namespace Lms.Sessions

/-- What holds in every history. -/
structure Inv (s : St) : Prop where
  sorted : s.sessions.Pairwise fun x y => x.1 < y.1
  objs : ∀ p o, s.sinks p = some o → o < s.next
  inj : ∀ p q o, s.sinks p = some o → s.sinks q = some o → p = q
  fresh : ∀ o, s.alive o = true → o < s.next
  wnodup : s.writers.Nodup
  winfo : ∀ p ∈ s.writers, ∃ k, s.infos p = some (some k)
  wsink : ∀ p ∈ s.writers, ∃ o, s.sinks p = some o

theorem inv_init : Inv {} where
  sorted := List.Pairwise.nil
  objs := by simp
  inj := by simp
  fresh := by simp
  wnodup := List.nodup_nil
  winfo := by simp
  wsink := by simp

theorem mem_insert {id : Nat} {x : Sess} {l : List (Nat × Sess)} {y : Nat × Sess} (h : y ∈ insert id x l) : y = (id, x) ∨ y ∈ l := by
  induction l with
  | nil => simp [insert] at h; exact Or.inl h
  | cons z l ih =>
    rw [insert] at h
    split at h
    · rw [List.mem_cons] at h; exact h
    · split at h
      · rw [List.mem_cons] at h
        rcases h with h | h
        · exact Or.inl h
        · exact Or.inr (List.mem_cons_of_mem _ h)
      · rw [List.mem_cons] at h
        rcases h with h | h
        · exact Or.inr (by simp [h])
        · rcases ih h with h | h
          · exact Or.inl h
          · exact Or.inr (List.mem_cons_of_mem _ h)

theorem insert_sorted {id : Nat} {x : Sess} {l : List (Nat × Sess)} (h : l.Pairwise fun x y => x.1 < y.1) :
    (insert id x l).Pairwise fun x y => x.1 < y.1 := by
  induction l with
  | nil => simp [insert]
  | cons z l ih =>
    obtain ⟨h1, h2⟩ := List.pairwise_cons.mp h
    rw [insert]
    split
    · rename_i hlt
      refine List.pairwise_cons.mpr ⟨?_, h⟩
      intro y hy
      rw [List.mem_cons] at hy
      rcases hy with rfl | hy
      · exact hlt
      · exact Nat.lt_trans hlt (h1 y hy)
    · split
      · rename_i _ he
        exact List.pairwise_cons.mpr ⟨fun y hy => by rw [he]; exact h1 y hy, h2⟩
      · refine List.pairwise_cons.mpr ⟨?_, ih h2⟩
        intro y hy
        rcases mem_insert hy with rfl | hy
        · show z.1 < id; omega
        · exact h1 y hy

/-- The map finds what was put in, and everything else as before. -/
theorem find_insert (l : List (Nat × Sess)) (h : l.Pairwise fun x y => x.1 < y.1) (id : Nat) (x : Sess) (j : Nat) :
    ((insert id x l).find? fun y => y.1 = j).map (·.2) = if j = id then some x else (l.find? fun y => y.1 = j).map (·.2) := by
  induction l with
  | nil =>
    rw [insert, List.find?_cons]
    by_cases hj : j = id
    · simp [hj]
    · have : ¬(id = j) := fun e => hj e.symm
      simp [hj, this]
  | cons z l ih =>
    obtain ⟨h1, h2⟩ := List.pairwise_cons.mp h
    rw [insert]
    split
    · rw [List.find?_cons]
      by_cases hj : j = id
      · simp [hj]
      · have : ¬(id = j) := fun e => hj e.symm
        simp [hj, this]
    · split
      · rename_i _ he
        rw [List.find?_cons, List.find?_cons]
        by_cases hj : j = id
        · simp [hj]
        · have e1 : ¬(id = j) := fun e => hj e.symm
          have e2 : ¬(z.1 = j) := by rw [← he]; exact e1
          simp [hj, e1, e2]
      · rename_i n1 n2
        rw [List.find?_cons, List.find?_cons]
        by_cases hz : z.1 = j
        · have : ¬(j = id) := by omega
          simp [hz, this]
        · simp only [hz, decide_false]
          exact ih h2

theorem find_upd (s : St) (h : Inv s) (id : Nat) (x : Sess) (j : Nat) : find { s with sessions := insert id x s.sessions } j =
    if j = id then some x else find s j := find_insert s.sessions h.sorted id x j

theorem upd_same {β : Type} (f : Nat → β) (i : Nat) (v : β) : upd f i v i = v := by simp [upd]
theorem upd_other {β : Type} (f : Nat → β) {i j : Nat} (v : β) (h : j ≠ i) : upd f i v j = f j := by simp [upd, h]

/-! ## Pieces -/

/-- A new sink, not registered. -/
theorem inv_new (s : St) (h : Inv s) : Inv { s with alive := upd s.alive s.next true, next := s.next + 1 } where
  sorted := h.sorted
  objs p o hp := Nat.lt_succ_of_lt (h.objs p o hp)
  inj := h.inj
  fresh o ho := by
    by_cases e : o = s.next
    · subst e; exact Nat.lt_succ_self _
    · exact Nat.lt_succ_of_lt (h.fresh o (by simp only [upd_other _ _ e] at ho; exact ho))
  wnodup := h.wnodup
  winfo := h.winfo
  wsink := h.wsink

/-- A new sink registered at a free port. -/
theorem inv_reg (s : St) (h : Inv s) (p : Nat) (hp : s.sinks p = none) :
    Inv { s with alive := upd s.alive s.next true, next := s.next + 1, sinks := upd s.sinks p (some s.next) } where
  sorted := h.sorted
  objs q o hq := by
    by_cases e : q = p
    · subst e; simp only [upd_same, Option.some.injEq] at hq; show o < s.next + 1; omega
    · simp only [upd_other _ _ e] at hq; exact Nat.lt_succ_of_lt (h.objs q o hq)
  inj a b o ha hb := by
    by_cases ea : a = p
    · by_cases eb : b = p
      · rw [ea, eb]
      · subst ea
        simp only [upd_same, upd_other _ _ eb, Option.some.injEq] at ha hb
        have := h.objs b o hb
        omega
    · by_cases eb : b = p
      · subst eb
        simp only [upd_same, upd_other _ _ ea, Option.some.injEq] at ha hb
        have := h.objs a o ha
        omega
      · simp only [upd_other _ _ ea, upd_other _ _ eb] at ha hb
        exact h.inj a b o ha hb
  fresh o ho := by
    by_cases e : o = s.next
    · subst e; exact Nat.lt_succ_self _
    · exact Nat.lt_succ_of_lt (h.fresh o (by simp only [upd_other _ _ e] at ho; exact ho))
  wnodup := h.wnodup
  winfo := h.winfo
  wsink q hq := by
    by_cases e : q = p
    · exact ⟨s.next, by subst e; exact upd_same _ _ _⟩
    · obtain ⟨o, ho⟩ := h.wsink q hq
      exact ⟨o, by rw [← ho]; exact upd_other _ _ e⟩

theorem inv_alive (s : St) (h : Inv s) (a : Nat → Bool) (ha : ∀ o, a o = true → s.alive o = true) : Inv { s with alive := a } where
  sorted := h.sorted
  objs := h.objs
  inj := h.inj
  fresh o ho := h.fresh o (ha o ho)
  wnodup := h.wnodup
  winfo := h.winfo
  wsink := h.wsink

theorem inv_sessions (s : St) (h : Inv s) (l : List (Nat × Sess)) (hl : l.Pairwise fun x y => x.1 < y.1) : Inv { s with sessions := l } where
  sorted := hl
  objs := h.objs
  inj := h.inj
  fresh := h.fresh
  wnodup := h.wnodup
  winfo := h.winfo
  wsink := h.wsink

theorem initiate_inv (l : List Found) (s : St) (h : Inv s) : ∀ s' subs b, initiate s l = .ok (s', subs, b) → Inv s' := by
  induction l generalizing s with
  | nil => intro s' subs b e; simp only [initiate, Outcome.ok.injEq, Prod.mk.injEq] at e; rw [← e.1]; exact h
  | cons f l ih =>
    intro s' subs b e
    rw [initiate] at e
    by_cases hf : f.ok = false
    · rw [if_pos hf] at e; cases e
    · rw [if_neg hf] at e
      simp only at e
      by_cases hs : (s.sinks f.port).isSome
      · rw [if_pos hs] at e
        simp only [Outcome.ok.injEq, Prod.mk.injEq] at e
        rw [← e.1]; exact inv_new s h
      · rw [if_neg hs] at e
        have hn : s.sinks f.port = none := by simpa using hs
        cases hr : initiate { s with alive := upd s.alive s.next true, next := s.next + 1, sinks := upd s.sinks f.port (some s.next) } l with
        | ub => simp only [hr] at e; cases e
        | hang => simp only [hr] at e; cases e
        | ok x =>
          simp only [hr, Outcome.map_ok, Outcome.ok.injEq, Prod.mk.injEq] at e
          rw [← e.1]
          exact ih _ (inv_reg s h f.port hn) x.1 x.2.1 x.2.2 hr

theorem setup_inv (l : List Found) (s : St) (h : Inv s) : Inv (setup s l).1 := by
  induction l generalizing s with
  | nil => exact h
  | cons f l ih =>
    rw [setup]
    by_cases hf : f.ok = false
    · rw [if_pos hf]; exact ih s h
    · rw [if_neg hf]
      simp only
      by_cases hs : (s.sinks f.port).isSome
      · rw [if_pos hs]; exact ih _ (inv_new s h)
      · rw [if_neg hs]
        exact ih _ (inv_reg s h f.port (by simpa using hs))

theorem closeAll_alive (l : List Sub) (a : Nat → Bool) : ∀ y, closeAll a l = .ok y → ∀ o, y.1 o = true → a o = true := by
  induction l generalizing a with
  | nil => intro y e o ho; simp only [closeAll, Outcome.ok.injEq] at e; rw [← e] at ho; exact ho
  | cons x l ih =>
    intro y e o ho
    rw [closeAll] at e
    cases hx : x.sink with
    | none =>
      simp only [hx] at e
      cases hc : closeAll a l with
      | ub => rw [hc] at e; cases e
      | hang => rw [hc] at e; cases e
      | ok z =>
        simp only [hc, Outcome.map_ok, Outcome.ok.injEq] at e
        rw [← e] at ho
        exact ih a z hc o ho
    | some q =>
      simp only [hx] at e
      by_cases hq : a q = true
      · rw [if_pos hq] at e
        cases hc : closeAll (upd a q false) l with
        | ub => rw [hc] at e; cases e
        | hang => rw [hc] at e; cases e
        | ok z =>
          simp only [hc, Outcome.map_ok, Outcome.ok.injEq] at e
          rw [← e] at ho
          have := ih _ z hc o ho
          by_cases eo : o = q
          · rw [eo]; exact hq
          · rw [upd_other _ _ eo] at this; exact this
      · rw [if_neg hq] at e; cases e

theorem shutdown_inv (s : St) (h : Inv s) (id : Nat) (x : Sess) : ∀ s', shutdown s id x = .ok s' → Inv s' := by
  intro s' e
  unfold shutdown at e
  cases hx : x.subs with
  | none =>
    simp only [hx, Outcome.ok.injEq] at e
    rw [← e]; exact inv_sessions s h _ (insert_sorted h.sorted)
  | some l =>
    simp only [hx] at e
    cases hc : closeAll s.alive l with
    | ub => rw [hc] at e; cases e
    | hang => rw [hc] at e; cases e
    | ok z =>
      simp only [hc, Outcome.map_ok, Outcome.ok.injEq] at e
      rw [← e]
      exact inv_sessions { s with alive := z.1 } (inv_alive s h z.1 (closeAll_alive l s.alive z hc)) _ (insert_sorted h.sorted)

/-- A sink closed and taken from the map while nobody is connected to it. -/
theorem inv_close (s : St) (h : Inv s) (p o : Nat) (hw : p ∉ s.writers) :
    Inv { s with alive := upd s.alive o false, sinks := upd s.sinks p none } where
  sorted := h.sorted
  objs := fun a q ha => by
    by_cases ep : a = p
    · subst ep; simp only [upd_same] at ha; cases ha
    · simp only [upd_other _ _ ep] at ha; exact h.objs a q ha
  inj := fun a b r ha hb => by
    by_cases ep : a = p
    · subst ep; simp only [upd_same] at ha; cases ha
    · by_cases eq : b = p
      · subst eq; simp only [upd_same] at hb; cases hb
      · simp only [upd_other _ _ ep, upd_other _ _ eq] at ha hb; exact h.inj a b r ha hb
  fresh := fun q hq => by
    by_cases eq : q = o
    · subst eq; simp only [upd_same] at hq; cases hq
    · simp only [upd_other _ _ eq] at hq; exact h.fresh q hq
  wnodup := h.wnodup
  winfo := h.winfo
  wsink := fun a ha => by
    obtain ⟨q, hq⟩ := h.wsink a ha
    refine ⟨q, ?_⟩
    have : a ≠ p := fun e => hw (e ▸ ha)
    simp only [upd_other _ _ this]; exact hq

/-- The streams of a session may be closed. -/
def Closable (s : St) (l : List Sub) : Prop := ∀ x ∈ l, ∀ o, s.sinks x.port = some o → s.alive o = true ∧ x.port ∉ s.writers

theorem removeSubs_ok (l : List Sub) (s : St) (h : Inv s) (hc : Closable s l) : ∃ s', removeSubs s l = .ok s' ∧ Inv s' ∧
    s'.sessions = s.sessions ∧ s'.infos = s.infos ∧ s'.writers = s.writers ∧ s'.next = s.next ∧
    (∀ p, s'.sinks p = if p ∈ l.map (·.port) then none else s.sinks p) ∧
    (∀ o, s'.alive o = true ↔ s.alive o = true ∧ ∀ x ∈ l, s.sinks x.port ≠ some o) := by
  induction l generalizing s with
  | nil => exact ⟨s, rfl, h, rfl, rfl, rfl, rfl, by simp, by simp⟩
  | cons x l ih =>
    rw [removeSubs]
    cases hx : s.sinks x.port with
    | none =>
      obtain ⟨s', e, hi, e1, e2, e3, e4, e5, e6⟩ := ih s h (fun y hy => hc y (List.mem_cons_of_mem _ hy))
      refine ⟨s', e, hi, e1, e2, e3, e4, ?_, ?_⟩
      · intro p
        rw [e5 p]; simp only [List.map_cons, List.mem_cons]
        by_cases hp : p = x.port
        · subst hp; simp [hx]
        · simp [hp]
      · intro o
        rw [e6 o]
        simp only [List.mem_cons, forall_eq_or_imp, hx]
        simp
    | some o =>
      obtain ⟨ha, hw⟩ := hc x (by simp) o hx
      simp only
      rw [if_neg (by rw [ha]; decide), if_neg hw]
      have hc' : Closable { s with alive := upd s.alive o false, sinks := upd s.sinks x.port none } l := by
        intro y hy q hq
        have ey : y.port ≠ x.port := fun e => by simp only [e, upd_same] at hq; cases hq
        simp only [upd_other _ _ ey] at hq
        obtain ⟨h1, h2⟩ := hc y (List.mem_cons_of_mem _ hy) q hq
        have eq : q ≠ o := fun e => ey (h.inj _ _ _ hq (e ▸ hx))
        exact ⟨by simp only [upd_other _ _ eq]; exact h1, h2⟩
      obtain ⟨s', e, hi, e1, e2, e3, e4, e5, e6⟩ := ih _ (inv_close s h x.port o hw) hc'
      refine ⟨s', e, hi, e1, e2, e3, e4, ?_, ?_⟩
      · intro p
        rw [e5 p]; simp only [List.map_cons, List.mem_cons]
        by_cases hp : p = x.port
        · subst hp; simp [upd_same]
        · simp [hp, upd_other _ _ hp]
      · intro q
        rw [e6 q]
        simp only [List.mem_cons, forall_eq_or_imp, hx]
        constructor
        · rintro ⟨h1, h2⟩
          have eq : q ≠ o := fun e => by subst e; simp only [upd_same] at h1; cases h1
          rw [upd_other _ _ eq] at h1
          refine ⟨h1, fun e => eq (Option.some.inj e).symm, ?_⟩
          intro y hy hq
          have ey : y.port ≠ x.port := fun e => by rw [e, hx] at hq; exact eq (Option.some.inj hq).symm
          exact h2 y hy (by rw [upd_other _ _ ey]; exact hq)
        · rintro ⟨h1, h2, h3⟩
          have eq : q ≠ o := fun e => h2 (by rw [e])
          refine ⟨by rw [upd_other _ _ eq]; exact h1, ?_⟩
          intro y hy hq
          have ey : y.port ≠ x.port := fun e => by rw [e, upd_same] at hq; cases hq
          rw [upd_other _ _ ey] at hq
          exact h3 y hy hq

theorem removeSubs_ub (l : List Sub) (s : St) (h : Inv s) (hc : ¬Closable s l) : removeSubs s l = .ub := by
  induction l generalizing s with
  | nil => exact absurd (fun x hx => absurd hx List.not_mem_nil) hc
  | cons x l ih =>
    rw [removeSubs]
    cases hx : s.sinks x.port with
    | none =>
      simp only
      refine ih s h fun hl => hc ?_
      intro y hy o ho
      rw [List.mem_cons] at hy
      rcases hy with rfl | hy
      · rw [hx] at ho; cases ho
      · exact hl y hy o ho
    | some o =>
      simp only
      by_cases ha : s.alive o = false
      · rw [if_pos ha]
      · rw [if_neg ha]
        by_cases hw : x.port ∈ s.writers
        · rw [if_pos hw]
          obtain ⟨k, hk⟩ := h.winfo _ hw
          simp only [writerDelete, hk, upd_same, Outcome.bind]
        · rw [if_neg hw]
          refine ih _ (inv_close s h x.port o hw) fun hl => hc ?_
          intro y hy q hq
          by_cases ey : y.port = x.port
          · rw [ey, hx] at hq
            cases hq
            exact ⟨by simpa using ha, by rw [ey]; exact hw⟩
          · rw [List.mem_cons] at hy
            rcases hy with rfl | hy
            · exact absurd rfl ey
            · have := hl y hy q (by simp only [upd_other _ _ ey]; exact hq)
              have eq : q ≠ o := fun e => ey (h.inj _ _ _ hq (e ▸ hx))
              simp only [upd_other _ _ eq] at this
              exact this

theorem streamInfo_cases (s : St) (port : Nat) : ∀ s' k, streamInfo s port = .ok (s', k) →
    s' = s ∨ (s.infos port = none ∧ s' = { s with infos := upd s.infos port (some k) }) := by
  intro s' k e
  unfold streamInfo at e
  cases hi : s.infos port with
  | some si =>
    simp only [hi, Outcome.ok.injEq, Prod.mk.injEq] at e
    exact Or.inl e.1.symm
  | none =>
    simp only [hi] at e
    cases hl : lookPort port s.sessions with
    | ub => rw [hl] at e; cases e
    | hang => rw [hl] at e; cases e
    | ok x =>
      cases x with
      | none =>
        simp only [hl, Outcome.map_ok, Outcome.ok.injEq, Prod.mk.injEq] at e
        exact Or.inl e.1.symm
      | some y =>
        simp only [hl, Outcome.map_ok, Outcome.ok.injEq, Prod.mk.injEq] at e
        exact Or.inr ⟨rfl, by rw [← e.1, ← e.2]⟩

theorem streamInfo_stored (s : St) (port : Nat) : ∀ s' k, streamInfo s port = .ok (s', some k) → s'.infos port = some (some k) := by
  intro s' k e
  unfold streamInfo at e
  cases hi : s.infos port with
  | some si =>
    simp only [hi, Outcome.ok.injEq, Prod.mk.injEq] at e
    rw [← e.1, hi, e.2]
  | none =>
    simp only [hi] at e
    cases hl : lookPort port s.sessions with
    | ub => rw [hl] at e; cases e
    | hang => rw [hl] at e; cases e
    | ok x =>
      cases x with
      | none =>
        simp only [hl, Outcome.map_ok, Outcome.ok.injEq, Prod.mk.injEq] at e
        exact absurd e.2 (by simp)
      | some y =>
        simp only [hl, Outcome.map_ok, Outcome.ok.injEq, Prod.mk.injEq] at e
        rw [← e.1, ← e.2]
        exact upd_same _ _ _

theorem streamInfo_inv (s : St) (h : Inv s) (port : Nat) : ∀ s' k, streamInfo s port = .ok (s', k) → Inv s' := by
  intro s' k e
  rcases streamInfo_cases s port s' k e with rfl | ⟨hn, rfl⟩
  · exact h
  · exact {
      sorted := h.sorted, objs := h.objs, inj := h.inj, fresh := h.fresh, wnodup := h.wnodup, wsink := h.wsink
      winfo := fun p hp => by
        obtain ⟨k', hk⟩ := h.winfo p hp
        have : p ≠ port := fun e => by rw [e, hn] at hk; cases hk
        exact ⟨k', by simp only [upd_other _ _ this]; exact hk⟩ }

end Lms.Sessions
