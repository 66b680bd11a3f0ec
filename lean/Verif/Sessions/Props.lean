import Verif.Sessions.Lemmas

/-!
# C63: sessions of the receiver
-/

namespace Lms.Sessions

theorem remove_ok (s : St) (h : Inv s) (id : Nat) (c : Client) (l : List Sub) (hf : find s id = some { client := c, subs := some l })
    (hc : Closable s l) (hcl : c = .open ∨ (c = .none ∧ l = [])) :
    ∃ s', step s (.remove id) = .ok (s', true) ∧ Inv s' ∧ s'.sessions = s.sessions.filter (fun y => y.1 ≠ id) ∧ s'.infos = s.infos ∧ s'.writers = s.writers ∧
      (∀ p, s'.sinks p = if p ∈ l.map (·.port) then none else s.sinks p) ∧
      (∀ o, s'.alive o = true ↔ s.alive o = true ∧ ∀ x ∈ l, s.sinks x.port ≠ some o) := by
  obtain ⟨s', e, hi, e1, e2, e3, e4, e5, e6⟩ := removeSubs_ok l s h hc
  refine ⟨{ s' with sessions := s'.sessions.filter fun y => y.1 ≠ id }, ?_, inv_sessions s' hi _ (hi.sorted.filter _), by rw [← e1], e2, e3, e5, e6⟩
  rw [step]
  simp only [hf, e, Outcome.bind_ok]
  rcases hcl with rfl | ⟨rfl, rfl⟩ <;> simp

theorem step_inv (s : St) (h : Inv s) (op : Op) : ∀ s' b, step s op = .ok (s', b) → Inv s' := by
  intro s' b e
  cases op with
  | addText id read =>
    rw [step.eq_def] at e; dsimp only at e
    by_cases hf : (find s id).isSome
    · rw [if_pos hf] at e; simp only [Outcome.ok.injEq, Prod.mk.injEq] at e; rw [← e.1]; exact h
    · rw [if_neg hf] at e
      cases read with
      | none => cases e
      | some l =>
        simp only at e
        cases hi : initiate s l with
        | ub => rw [hi] at e; cases e
        | hang => rw [hi] at e; cases e
        | ok x =>
          simp only [hi, Outcome.map_ok, Outcome.ok.injEq, Prod.mk.injEq] at e
          have hx := initiate_inv l s h x.1 x.2.1 x.2.2 hi
          rw [← e.1]
          exact inv_sessions _ hx _ (insert_sorted hx.sorted)
  | addUrl id ok =>
    rw [step] at e
    by_cases hf : (find s id).isSome
    · rw [if_pos hf] at e; simp only [Outcome.ok.injEq, Prod.mk.injEq] at e; rw [← e.1]; exact h
    · rw [if_neg hf] at e
      by_cases hk : ok = false
      · rw [if_pos hk] at e; simp only [Outcome.ok.injEq, Prod.mk.injEq] at e; rw [← e.1]; exact h
      · rw [if_neg hk] at e; simp only [Outcome.ok.injEq, Prod.mk.injEq] at e; rw [← e.1]
        exact inv_sessions _ h _ (insert_sorted h.sorted)
  | described id read play =>
    rw [step.eq_def] at e; dsimp only at e
    split at e
    · split at e
      · cases hs : shutdown s id { client := .open, subs := none } with
        | ub => rw [hs] at e; cases e
        | hang => rw [hs] at e; cases e
        | ok y =>
          simp only [hs, Outcome.map_ok, Outcome.ok.injEq, Prod.mk.injEq] at e
          rw [← e.1]; exact shutdown_inv s h _ _ y hs
      · cases hs : shutdown s id { client := .open, subs := some [] } with
        | ub => rw [hs] at e; cases e
        | hang => rw [hs] at e; cases e
        | ok y =>
          simp only [hs, Outcome.map_ok, Outcome.ok.injEq, Prod.mk.injEq] at e
          rw [← e.1]; exact shutdown_inv s h _ _ y hs
      · rename_i f l
        have hx := setup_inv (f :: l) s h
        by_cases hp : play = true
        · rw [if_pos hp] at e
          simp only [Outcome.ok.injEq, Prod.mk.injEq] at e
          rw [← e.1]
          exact inv_sessions _ hx _ (insert_sorted hx.sorted)
        · rw [if_neg hp] at e
          cases hs : shutdown (setup s (f :: l)).1 id { client := .open, subs := some (setup s (f :: l)).2 } with
          | ub => rw [hs] at e; cases e
          | hang => rw [hs] at e; cases e
          | ok y =>
            simp only [hs, Outcome.map_ok, Outcome.ok.injEq, Prod.mk.injEq] at e
            rw [← e.1]; exact shutdown_inv _ hx _ _ y hs
    · simp only [Outcome.ok.injEq, Prod.mk.injEq] at e; rw [← e.1]; exact h
  | expired id =>
    rw [step] at e
    split at e
    · rename_i l _
      cases hs : shutdown s id { client := .open, subs := some l } with
      | ub => rw [hs] at e; cases e
      | hang => rw [hs] at e; cases e
      | ok y =>
        simp only [hs, Outcome.map_ok, Outcome.ok.injEq, Prod.mk.injEq] at e
        rw [← e.1]; exact shutdown_inv s h _ _ y hs
    · simp only [Outcome.ok.injEq, Prod.mk.injEq] at e; rw [← e.1]; exact h
  | ended id k =>
    rw [step] at e
    split at e
    · split at e
      · split at e
        · rename_i o _
          split at e
          · simp only [Outcome.ok.injEq, Prod.mk.injEq] at e
            rw [← e.1]
            refine inv_sessions { s with alive := upd s.alive o false } (inv_alive s h _ ?_) _ (insert_sorted h.sorted)
            intro q hq
            by_cases eq : q = o
            · subst eq; simp only [upd_same] at hq; cases hq
            · rw [upd_other _ _ eq] at hq; exact hq
          · cases e
        · simp only [Outcome.ok.injEq, Prod.mk.injEq] at e; rw [← e.1]; exact h
      · simp only [Outcome.ok.injEq, Prod.mk.injEq] at e; rw [← e.1]; exact h
    · simp only [Outcome.ok.injEq, Prod.mk.injEq] at e; rw [← e.1]; exact h
  | connect port accept =>
    rw [step] at e
    by_cases hw : port ∈ s.writers
    · rw [if_pos hw] at e; simp only [Outcome.ok.injEq, Prod.mk.injEq] at e; rw [← e.1]; exact h
    · rw [if_neg hw] at e
      by_cases hs : (s.sinks port).isNone
      · rw [if_pos hs] at e; simp only [Outcome.ok.injEq, Prod.mk.injEq] at e; rw [← e.1]; exact h
      · rw [if_neg hs] at e
        cases hi : streamInfo s port with
        | ub => rw [hi] at e; cases e
        | hang => rw [hi] at e; cases e
        | ok x =>
          obtain ⟨s1, k⟩ := x
          have h1 := streamInfo_inv s h port s1 k hi
          simp only [hi, Outcome.bind_ok] at e
          by_cases hk : k.isNone ∨ accept = false
          · rw [if_pos hk] at e
            cases hd : writerDelete s1 port with
            | ub => rw [hd] at e; cases e
            | hang => rw [hd] at e; cases e
            | ok y =>
              simp only [hd, Outcome.map_ok, Outcome.ok.injEq, Prod.mk.injEq] at e
              rw [← e.1]; exact h1
          · rw [if_neg hk] at e
            simp only [Outcome.ok.injEq, Prod.mk.injEq] at e
            rw [← e.1]
            obtain ⟨kk, rfl⟩ : ∃ kk, k = some kk := by
              cases k with
              | none => exact absurd (Or.inl rfl) hk
              | some kk => exact ⟨kk, rfl⟩
            have hst := streamInfo_stored s port s1 kk hi
            have hsame : s1.writers = s.writers ∧ s1.sinks = s.sinks := by
              rcases streamInfo_cases s port s1 _ hi with rfl | ⟨_, rfl⟩ <;> exact ⟨rfl, rfl⟩
            exact {
              sorted := h1.sorted, objs := h1.objs, inj := h1.inj, fresh := h1.fresh
              wnodup := List.nodup_cons.mpr ⟨by rw [hsame.1]; exact hw, h1.wnodup⟩
              winfo := fun p hp => by
                rw [List.mem_cons] at hp
                rcases hp with rfl | hp
                · exact ⟨kk, hst⟩
                · exact h1.winfo p hp
              wsink := fun p hp => by
                rw [List.mem_cons] at hp
                rcases hp with rfl | hp
                · cases hq : s.sinks p with
                  | none => rw [hq] at hs; exact absurd rfl hs
                  | some o => exact ⟨o, by rw [← hq, ← hsame.2]⟩
                · exact h1.wsink p hp }
  | disconnect port =>
    rw [step] at e
    by_cases hw : port ∈ s.writers
    · rw [if_pos hw] at e
      cases hd : writerDelete s port with
      | ub => rw [hd] at e; cases e
      | hang => rw [hd] at e; cases e
      | ok y =>
        simp only [hd, Outcome.map_ok, Outcome.ok.injEq, Prod.mk.injEq] at e
        rw [← e.1]
        exact {
          sorted := h.sorted, objs := h.objs, inj := h.inj, fresh := h.fresh
          wnodup := h.wnodup.erase _
          winfo := fun p hp => h.winfo p (List.mem_of_mem_erase hp)
          wsink := fun p hp => h.wsink p (List.mem_of_mem_erase hp) }
    · rw [if_neg hw] at e; simp only [Outcome.ok.injEq, Prod.mk.injEq] at e; rw [← e.1]; exact h
  | round =>
    rw [step] at e
    split at e
    · simp only [Outcome.ok.injEq, Prod.mk.injEq] at e; rw [← e.1]; exact h
    · cases e
  | remove id =>
    cases hf : find s id with
    | none => rw [step] at e; simp only [hf, Outcome.ok.injEq, Prod.mk.injEq] at e; rw [← e.1]; exact h
    | some x =>
      obtain ⟨c, subs⟩ := x
      cases subs with
      | none => rw [step] at e; simp only [hf] at e; cases e
      | some l =>
        by_cases hc : Closable s l
        · by_cases hcl : c = .open ∨ (c = .none ∧ l = [])
          · obtain ⟨s2, e2, hi, -⟩ := remove_ok s h id c l hf hc hcl
            rw [e2] at e
            simp only [Outcome.ok.injEq, Prod.mk.injEq] at e
            rw [← e.1]; exact hi
          · obtain ⟨s2, e2, -⟩ := removeSubs_ok l s h hc
            rw [step] at e
            simp only [hf, e2, Outcome.bind_ok] at e
            exfalso
            by_cases hl : l = []
            · subst hl
              cases c <;> simp at e hcl
            · cases c <;> simp [hl] at e hcl
        · rw [step] at e
          simp only [hf, removeSubs_ub l s h hc, Outcome.bind] at e
          cases e

/-- Every state a history reaches is consistent. -/
theorem run_inv (ops : List Op) (s : St) (h : Inv s) : ∀ s', run s ops = .ok s' → Inv s' := by
  induction ops generalizing s with
  | nil => intro s' e; simp only [run, Outcome.ok.injEq] at e; rw [← e]; exact h
  | cons op ops ih =>
    intro s' e
    rw [run] at e
    cases hs : step s op with
    | ub => rw [hs] at e; cases e
    | hang => rw [hs] at e; cases e
    | ok x =>
      simp only [hs, Outcome.bind_ok] at e
      exact ih x.1 (step_inv s h op x.1 x.2 hs) s' e

/-- A state some history reaches. -/
def Reachable (s : St) : Prop := ∃ ops, run {} ops = .ok s

theorem reachable_inv {s : St} (h : Reachable s) : Inv s := by
  obtain ⟨ops, e⟩ := h
  exact run_inv ops {} inv_init s e

/-- C63: one session per id, one sink per port, and every port another filter is connected to has a sink and a known description. -/
theorem consistent (s : St) (h : Reachable s) : (s.sessions.map (·.1)).Nodup ∧
    (∀ p q o, s.sinks p = some o → s.sinks q = some o → p = q) ∧ s.writers.Nodup ∧
    ∀ p ∈ s.writers, (∃ o, s.sinks p = some o) ∧ ∃ k, s.infos p = some (some k) := by
  have hi := reachable_inv h
  refine ⟨?_, hi.inj, hi.wnodup, fun p hp => ⟨hi.wsink p hp, hi.winfo p hp⟩⟩
  rw [List.Nodup, List.pairwise_map]
  exact hi.sorted.imp fun h => by omega

/-- C63: an id in use is refused and nothing changes. -/
theorem used_id_refused (s : St) (id : Nat) (h : (find s id).isSome) (read : Option (List Found)) (ok : Bool) :
    step s (.addText id read) = .ok (s, false) ∧ step s (.addUrl id ok) = .ok (s, false) := by
  constructor
  · rw [step.eq_def]; dsimp only; rw [if_pos h]
  · rw [step, if_pos h]

/-- C63: removing a session is defined exactly for an unknown id (refused), for a described RTSP session still open none of whose
ports has a freed sink or a connected filter, and for one made from a text without any stream. -/
theorem remove_defined_iff (s : St) (h : Reachable s) (id : Nat) : step s (.remove id) ≠ .ub ↔
    find s id = none ∨ ∃ c l, find s id = some { client := c, subs := some l } ∧
      (∀ x ∈ l, ∀ o, s.sinks x.port = some o → s.alive o = true ∧ x.port ∉ s.writers) ∧ (c = .open ∨ (c = .none ∧ l = [])) := by
  have hi := reachable_inv h
  constructor
  · intro e
    cases hf : find s id with
    | none => exact Or.inl rfl
    | some x =>
      obtain ⟨c, subs⟩ := x
      cases subs with
      | none => exact absurd (by rw [step]; simp only [hf]) e
      | some l =>
        refine Or.inr ⟨c, l, rfl, ?_⟩
        by_cases hc : Closable s l
        · refine ⟨hc, ?_⟩
          by_cases hcl : c = .open ∨ (c = .none ∧ l = [])
          · exact hcl
          · exfalso
            obtain ⟨s2, e2, -⟩ := removeSubs_ok l s hi hc
            apply e
            rw [step]
            simp only [hf, e2, Outcome.bind_ok]
            by_cases hl : l = []
            · subst hl
              cases c <;> simp at hcl ⊢
            · cases c <;> simp [hl] at hcl ⊢
        · exfalso
          apply e
          rw [step]
          simp only [hf, removeSubs_ub l s hi hc, Outcome.bind]
  · rintro (hf | ⟨c, l, hf, hc, hcl⟩)
    · rw [step]; simp only [hf]; simp
    · obtain ⟨s', e, -⟩ := remove_ok s hi id c l hf hc hcl
      rw [e]; simp

/-- C63: where it is defined, removal takes away the session and the sinks of its ports, and nothing else. -/
theorem remove_effect (s : St) (h : Reachable s) (id : Nat) (l : List Sub) (hf : find s id = some { client := .open, subs := some l })
    (hc : ∀ x ∈ l, ∀ o, s.sinks x.port = some o → s.alive o = true ∧ x.port ∉ s.writers) :
    ∃ s', step s (.remove id) = .ok (s', true) ∧ (∀ j, find s' j = if j = id then none else find s j) ∧
      (∀ p, s'.sinks p = if p ∈ l.map (·.port) then none else s.sinks p) ∧ s'.writers = s.writers ∧ s'.infos = s.infos := by
  obtain ⟨s', e, hi, e1, e2, e3, e4, -⟩ := remove_ok s (reachable_inv h) id .open l hf hc (Or.inl rfl)
  refine ⟨s', e, ?_, e4, e3, e2⟩
  intro j
  unfold find
  rw [e1]
  generalize s.sessions = ss
  induction ss with
  | nil => simp
  | cons y ss ih =>
    by_cases hy : y.1 = id
    · rw [List.filter_cons_of_neg (by simp [hy]), ih]
      by_cases hj : j = id
      · simp [hj]
      · have : ¬(y.1 = j) := by omega
        simp [hj, this]
    · rw [List.filter_cons_of_pos (by simp [hy])]
      by_cases hj : y.1 = j
      · have : ¬(j = id) := by omega
        simp [hj, this]
      · rw [List.find?_cons_of_neg (by simp [hj]), List.find?_cons_of_neg (by simp [hj])]
        exact ih

/-- C63: a round is defined exactly when no connected filter's stream has ended. -/
theorem round_defined_iff (s : St) (h : Reachable s) : step s .round ≠ .ub ↔ ∀ p ∈ s.writers, ∃ o, s.sinks p = some o ∧ s.alive o = true := by
  have hi := reachable_inv h
  rw [step]
  constructor
  · intro e p hp
    split at e
    · rename_i hall
      obtain ⟨o, ho⟩ := hi.wsink p hp
      have := List.all_eq_true.mp hall p hp
      rw [ho] at this
      exact ⟨o, ho, this⟩
    · exact absurd rfl e
  · intro hall
    rw [if_pos]
    · simp
    · rw [List.all_eq_true]
      intro p hp
      obtain ⟨o, ho, ha⟩ := hall p hp
      rw [ho]; exact ha

/-- Disconnecting a filter is defined exactly when the stream has not ended. -/
theorem disconnect_defined_iff (s : St) (h : Reachable s) (p : Nat) (hp : p ∈ s.writers) :
    step s (.disconnect p) ≠ .ub ↔ ∃ o, s.sinks p = some o ∧ s.alive o = true := by
  have hi := reachable_inv h
  obtain ⟨o, ho⟩ := hi.wsink p hp
  obtain ⟨k, hk⟩ := hi.winfo p hp
  rw [step, if_pos hp]
  simp only [writerDelete, hk, ho]
  by_cases ha : s.alive o = true
  · rw [if_pos ha]
    simp [Outcome.map_ok, ha]
  · rw [if_neg ha]
    simp [Outcome.map, ha]

theorem lookPort_described (port : Nat) (l : List (Nat × Sess)) (h : ∀ x ∈ l, x.2.subs.isSome) :
    lookPort port l = .ok ((l.flatMap fun x => x.2.subs.getD []).find? fun y => y.port = port) := by
  induction l with
  | nil => rfl
  | cons x l ih =>
    have hx := h x (by simp)
    rw [lookPort]
    cases hs : x.2.subs with
    | none => rw [hs] at hx; cases hx
    | some subs =>
      simp only [List.flatMap_cons, hs, Option.getD_some, List.find?_append]
      cases hf : subs.find? fun y => y.port = port with
      | some y => simp
      | none =>
        simp only [Option.none_or]
        exact ih fun y hy => h y (List.mem_cons_of_mem _ hy)

/-- C63: once every session is described, connecting a filter to a port that has a sink and was never connected before works
exactly if the filter accepts and the first stream with that port, sessions taken in the order of their ids, has a supported codec;
the connection gets the description of that stream. -/
theorem connect_first_time (s : St) (h : Reachable s) (p o : Nat) (hs : s.sinks p = some o) (ha : s.alive o = true) (hi : s.infos p = none)
    (hd : ∀ x ∈ s.sessions, x.2.subs.isSome) (accept : Bool) :
    ∃ s' b, step s (.connect p accept) = .ok (s', b) ∧
      (b = true ↔ accept = true ∧ ∃ y k, (s.sessions.flatMap fun x => x.2.subs.getD []).find? (fun y => y.port = p) = some y ∧ y.kind = some k) ∧
      (b = true → p ∈ s'.writers ∧ ∃ y, (s.sessions.flatMap fun x => x.2.subs.getD []).find? (fun y => y.port = p) = some y ∧ s'.infos p = some y.kind) ∧
      (b = false → s'.writers = s.writers) := by
  have hinv := reachable_inv h
  have hw : p ∉ s.writers := fun hw => by
    obtain ⟨k, hk⟩ := hinv.winfo p hw; rw [hi] at hk; cases hk
  rw [step, if_neg hw, if_neg (by rw [hs]; simp)]
  simp only [streamInfo, hi, lookPort_described p _ hd, Outcome.map_ok, Outcome.bind_ok]
  cases hf : (s.sessions.flatMap fun x => x.2.subs.getD []).find? fun y => y.port = p with
  | none =>
    refine ⟨s, false, ?_, by simp, by simp, by simp⟩
    simp [writerDelete, hi, Outcome.map_ok]
  | some y =>
    cases hk : y.kind with
    | none =>
      refine ⟨{ s with infos := upd s.infos p (some none) }, false, ?_, ?_, by simp, by simp⟩
      · simp [hk, writerDelete, upd_same, hs, ha, Outcome.map_ok]
      · simp [hk]
    | some k =>
      cases accept with
      | false =>
        refine ⟨{ s with infos := upd s.infos p (some (some k)) }, false, ?_, by simp, by simp, by simp⟩
        simp [hk, writerDelete, upd_same, hs, ha, Outcome.map_ok]
      | true =>
        refine ⟨{ s with infos := upd s.infos p (some (some k)), writers := p :: s.writers }, true, ?_, ?_, ?_, by simp⟩
        · simp [hk]
        · exact ⟨fun _ => ⟨rfl, y, k, rfl, hk⟩, fun _ => rfl⟩
        · intro _
          exact ⟨List.mem_cons_self, y, rfl, by rw [hk]; exact upd_same _ _ _⟩

end Lms.Sessions
