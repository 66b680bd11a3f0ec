import Verif.Wired.Spec

/-! The filters registered with a reader in use are those that hold it; only reading filters handle frames. -/

namespace Lms.Wired

open FilterConn

/-- The filters registered with a reader whose queue has a writer hold it, and are registered once. -/
def Back (s : St) : Prop :=
  ∀ o, held s o → fed s o →
    (∀ f ∈ (s.rdr o).filters, ∃ e ∈ s.rs, e.f = f ∧ e.obj = some o) ∧ (s.rdr o).filters.Nodup

theorem back_ws {s t : St} (h : Back s) (hr : t.rs = s.rs) (hd : t.rdr = s.rdr) (hw : ∀ e ∈ t.ws, e ∈ s.ws) : Back t := by
  intro o ho hf
  have ho' : held s o := by unfold held at ho ⊢; rw [hr] at ho; exact ho
  have hf' : fed s o := by
    obtain ⟨q, h1, e, h2, h3⟩ := hf
    exact ⟨q, by rw [← hd]; exact h1, e, hw e h2, h3⟩
  rw [hr, hd]
  exact h o ho' hf'

/-- An entry of a filter registered once leaves. -/
theorem back_drop {s t : St} (hi : Inv s) (hg : Reg s) (hb : Back s) {o f : Nat} {id : Int}
    (he : (⟨f, id, some o⟩ : RE) ∈ s.rs) (hm : ∀ e, e ∈ t.rs ↔ e ∈ s.rs ∧ ¬ (e.f = f ∧ e.id = id))
    (hw : t.ws = s.ws) (hp : ∀ p, p ≠ o → t.rdr p = s.rdr p)
    (hq : (t.rdr o).queue = (s.rdr o).queue ∨ (t.rdr o).queue = none)
    (ho : held t o → (t.rdr o).filters = (s.rdr o).filters.filter (· ≠ f)) : Back t := by
  intro p hh hf
  have hs : held s p := by
    obtain ⟨e, h1, h2⟩ := hh
    exact ⟨e, ((hm e).1 h1).1, h2⟩
  have hf' : fed s p := by
    obtain ⟨q, h1, e, h2, h3⟩ := hf
    refine ⟨q, ?_, e, by rw [← hw]; exact h2, h3⟩
    by_cases hpo : p = o
    · subst hpo
      rcases hq with hq | hq
      · rw [← hq]; exact h1
      · rw [hq] at h1; cases h1
    · rw [← hp p hpo]; exact h1
  obtain ⟨b1, b2⟩ := hb p hs hf'
  by_cases hpo : p = o
  · subst hpo
    rw [ho hh]
    refine ⟨fun x hx => ?_, b2.filter _⟩
    obtain ⟨hx1, hx2⟩ := List.mem_filter.1 hx
    obtain ⟨e, h1, h2, h3⟩ := b1 x hx1
    refine ⟨e, (hm e).2 ⟨h1, fun hk => ?_⟩, h2, h3⟩
    simp only [ne_eq, decide_not, Bool.not_eq_true', decide_eq_false_iff_not] at hx2
    exact hx2 (h2.symm.trans hk.1)
  · rw [hp p hpo]
    refine ⟨fun x hx => ?_, b2⟩
    obtain ⟨e, h1, h2, h3⟩ := b1 x hx
    refine ⟨e, (hm e).2 ⟨h1, fun hk => ?_⟩, h2, h3⟩
    rw [hi.rUnique h1 he hk] at h3
    cases h3
    exact hpo rfl

theorem deleteReader_back {s : St} (hi : Inv s) (hr : Reg s) (hb : Back s) {o f : Nat} {id : Int}
    (he : (⟨f, id, some o⟩ : RE) ∈ s.rs) (d : Bool) {t : St} {b : Bool} (h : deleteReader s f id d = .ok (t, b)) : Back t := by
  obtain ⟨t', h1, h2, h3, h4, h5, _, _, _, _, _, h6, h7⟩ := deleteReader_ok hi he d
  rw [h1] at h; cases h
  refine back_drop hi hr hb he (fun e => by rw [h3]; exact filter_mem_iff e) h4 h5 h6 ?_
  rintro ⟨e, hem, hep⟩
  obtain ⟨t1, b1, q1, q2⟩ := h7 ⟨e, by rw [← h3]; exact hem, hep⟩
  obtain ⟨t2, b2, k1, _, _, _, _, _, _, _, _, _, _, k2⟩ := rDisconnect_ok hi (o := o) ⟨_, he, rfl⟩ f
  rw [k1] at q1; cases q1
  rw [q2, (k2 (hr.reg _ he o rfl).1).1]

theorem sweepListR_back {s : St} {strict : Bool} : ∀ (l : List RE) {t : St}, sweepListR s strict l = .ok t → Inv s → (∀ e ∈ l, e ∈ s.rs) →
    (l.Pairwise fun a b => ¬ (a.f = b.f ∧ a.id = b.id)) → Reg s → Back s → Back t := by
  intro l
  induction l generalizing s with
  | nil => intro t h _ _ _ _ hb; cases h; exact hb
  | cons x l ih =>
    intro t h hi hl hp hr hb
    obtain ⟨hx, hpl⟩ := List.pairwise_cons.1 hp
    have hxm := hl x (List.mem_cons_self ..)
    obtain ⟨f, id, ob⟩ := x
    cases ob with
    | none =>
      unfold sweepListR at h
      cases strict with
      | true => rw [if_pos rfl] at h; cases h
      | false => rw [if_neg (by decide)] at h; exact ih h hi (fun e he => hl e (List.mem_cons_of_mem _ he)) hpl hr hb
    | some o =>
      obtain ⟨c, hc, _⟩ := rConnected_ok hi (o := o) ⟨_, hxm, rfl⟩
      unfold sweepListR at h
      rw [hc] at h
      simp only [Outcome.bind_ok] at h
      cases c with
      | true => rw [if_pos rfl] at h; exact ih h hi (fun e he => hl e (List.mem_cons_of_mem _ he)) hpl hr hb
      | false =>
        rw [if_neg (by decide)] at h
        obtain ⟨s1, e1, i1, r1, _⟩ := deleteReader_ok hi hxm true
        rw [e1] at h
        simp only [Outcome.bind_ok] at h
        refine ih h i1 (fun e he => ?_) hpl (deleteReader_reg hi hr hxm true e1) (deleteReader_back hi hr hb hxm true e1)
        rw [r1, filter_mem_iff]
        exact ⟨hl e (List.mem_cons_of_mem _ he), fun h => hx e he ⟨h.1.symm, h.2.symm⟩⟩

theorem connect_back {s : St} (hi : Inv s) (hb : Back s) (w r : Nat) (wid rid : Int) : Back (connected s w r wid rid) := by
  have hrs : (connected s w r wid rid).rs = s.rs ++ [⟨r, rid, some s.nextR⟩] := rfl
  have hrd : (connected s w r wid rid).rdr = upd s.rdr s.nextR ⟨some s.nextQ, [r]⟩ := rfl
  have hws : (connected s w r wid rid).ws = s.ws ++ [⟨w, wid, s.nextQ⟩] := rfl
  intro o ho hf
  by_cases hn : o = s.nextR
  · subst hn
    rw [hrd, upd_same, hrs]
    refine ⟨fun f hf => ?_, by simp⟩
    simp only [List.mem_singleton] at hf
    subst hf
    exact ⟨_, List.mem_append_right _ (List.mem_singleton.2 rfl), rfl, rfl⟩
  · have hs : held s o := by
      obtain ⟨e, h1, h2⟩ := ho
      rw [hrs] at h1
      rcases List.mem_append.1 h1 with h1 | h1
      · exact ⟨e, h1, h2⟩
      · rw [List.mem_singleton] at h1; subst h1; cases h2; exact absurd rfl hn
    have hf' : fed s o := by
      obtain ⟨q, h1, e, h2, h3⟩ := hf
      rw [hrd, upd_other _ _ hn] at h1
      refine ⟨q, h1, e, ?_, h3⟩
      rw [hws] at h2
      rcases List.mem_append.1 h2 with h2 | h2
      · exact h2
      · rw [List.mem_singleton] at h2
        subst h2
        obtain ⟨c, f, w', hc⟩ := hi.rCell o hs q h1
        rw [← h3, hi.freshQ _ (Nat.le_refl _)] at hc
        cases hc
    obtain ⟨b1, b2⟩ := hb o hs hf'
    rw [hrd, upd_other _ _ hn, hrs]
    refine ⟨fun f hx => ?_, b2⟩
    obtain ⟨e, h1, h2⟩ := b1 f hx
    exact ⟨e, List.mem_append_left _ h1, h2⟩

theorem reach_back {mr mw : Nat → Nat} {s : St} (h : Reach mr mw s) : Back s := by
  induction h with
  | init => rintro o ⟨e, he, _⟩; cases he
  | step hr hp hs hb =>
    rename_i s t op b
    obtain ⟨hi, hg⟩ := reach_inv hr
    cases op with
    | connect w r wid rid a =>
      simp only [step] at hs
      by_cases hne : w = r
      · unfold connect at hs; rw [if_pos hne] at hs; cases hs
      obtain ⟨t', b', h1, hcs⟩ := connect_ok hi wid rid a hne
      rw [h1] at hs; cases hs
      rcases hcs with ⟨_, rfl, _⟩ | ⟨_, rfl, _⟩ | ⟨_, rfl, _⟩ | ⟨_, rfl, _⟩
      · exact connect_back hi hb w r wid rid
      · exact hb
      · exact hb
      · intro o ho hf
        have hs : held s o := by
          obtain ⟨e, h1, h2⟩ := ho
          rcases List.mem_append.1 (show e ∈ s.rs ++ [_] from h1) with h1 | h1
          · exact ⟨e, h1, h2⟩
          · rw [List.mem_singleton] at h1; subst h1; cases h2
        obtain ⟨b1, b2⟩ := hb o hs hf
        refine ⟨fun f hx => ?_, b2⟩
        obtain ⟨e, h1, h2⟩ := b1 f hx
        exact ⟨e, List.mem_append_left _ h1, h2⟩
    | share f g gid fid rcfg =>
      simp only [step] at hs
      by_cases hn : ∃ e ∈ s.rs, (e.f = f ∧ e.id = fid ∨ e.f = g ∧ e.id = gid) ∧ e.obj = none
      · rw [(share_null hs hi hn).1]; exact hb
      obtain ⟨t', b', h1, h2⟩ := share_ok hi f g gid fid rcfg (fun e he hc h => hn ⟨e, he, .inl hc, h⟩) (fun e he hc h => hn ⟨e, he, .inr hc, h⟩)
      rw [h1] at hs; cases hs
      rcases h2 with ⟨_, rfl, _⟩ | ⟨_, hfg, _, hno, _, o, ho, hfo, hrs, hws, _, _, _, _, _, hq, hfs, hrest⟩
      · exact hb
      · have keep : ∀ e ∈ s.rs, ∀ p, e.obj = some p → fed s p → e ∈ t.rs := by
          intro e he p hep hfp
          rw [hrs]
          refine List.mem_append_left _ ((filter_mem_iff e).2 ⟨he, fun hk => ?_⟩)
          exact hno e he hk p hep hfp
        intro p hh hf
        by_cases hpo : p = o
        · subst hpo
          obtain ⟨b1, b2⟩ := hb p ⟨_, ho, rfl⟩ hfo
          have hnew : ∀ x ∈ (s.rdr p).filters, ∃ e ∈ t.rs, e.f = x ∧ e.obj = some p := by
            intro x hx
            obtain ⟨e, h1, h2, h3⟩ := b1 x hx
            exact ⟨e, keep e h1 p h3 hfo, h2, h3⟩
          rw [hfs]
          split
          · exact ⟨hnew, b2⟩
          · rename_i hng
            refine ⟨fun x hx => ?_, ?_⟩
            · rcases List.mem_append.1 hx with hx | hx
              · exact hnew x hx
              · rw [List.mem_singleton] at hx
                subst hx
                exact ⟨_, by rw [hrs]; exact List.mem_append_right _ (List.mem_singleton.2 rfl), rfl, rfl⟩
            · rw [List.nodup_append]
              refine ⟨b2, by simp, ?_⟩
              intro a ha b hb' e
              rw [List.mem_singleton] at hb'
              subst hb' e
              exact hng ha
        · have he : held (eraseR s g gid) p := by
            obtain ⟨e, h1, h2⟩ := hh
            rw [hrs] at h1
            rcases List.mem_append.1 h1 with h1 | h1
            · exact ⟨e, h1, h2⟩
            · rw [List.mem_singleton] at h1; subst h1; cases h2; exact absurd rfl hpo
          have er := hrest p hpo he
          have hs : held s p := by
            obtain ⟨e, h1, h2⟩ := he
            exact ⟨e, ((filter_mem_iff e).1 h1).1, h2⟩
          have hf' : fed s p := by
            obtain ⟨q, h1, e, h2, h3⟩ := hf
            exact ⟨q, by rw [← er]; exact h1, e, by rw [← hws]; exact h2, h3⟩
          obtain ⟨b1, b2⟩ := hb p hs hf'
          rw [er]
          refine ⟨fun x hx => ?_, b2⟩
          obtain ⟨e, h1, h2, h3⟩ := b1 x hx
          exact ⟨e, keep e h1 p h3 hf', h2, h3⟩
    | disconnectW f id d =>
      obtain ⟨t', b', h1, _, h3, h4, h5, _⟩ := disconnectWriter_ok hi f id d
      simp only [step] at hs
      rw [h1] at hs; cases hs
      exact back_ws hb h4 h5 (fun e he => by rw [h3] at he; exact (List.mem_filter.1 he).1)
    | disconnectR f id d =>
      simp only [step] at hs
      cases hf : findR s f id with
      | none => unfold disconnectReader at hs; rw [hf] at hs; cases hs; exact hb
      | some e =>
        obtain ⟨hem, hef, heid⟩ := findR_some hf
        obtain ⟨f', id', ob⟩ := e
        simp only at hef heid
        subst hef heid
        cases ob with
        | none => unfold disconnectReader at hs; rw [hf] at hs; cases hs
        | some o =>
          obtain ⟨t', h1, _, h3, h4, _, h6, h7, h8⟩ := disconnectReader_reg hi hg hem d
          rw [h1] at hs; cases hs
          by_cases hh : held t o
          · refine back_drop hi hg hb hem (fun e => by rw [h3]; simp only [List.mem_filter, decide_eq_true_eq]) h4 h7 (.inl ?_) h8
            obtain ⟨e, he1, he2⟩ := hh
            exact h6 e he1 o he2
          · intro p hp hfp
            have hpo : p ≠ o := by rintro rfl; exact hh hp
            have hm : ∀ e, e ∈ t.rs ↔ e ∈ s.rs ∧ ¬ (e.f = f' ∧ e.id = id') := by
              intro e; rw [h3]; simp only [List.mem_filter, decide_eq_true_eq]
            have hs : held s p := by
              obtain ⟨e, h1, h2⟩ := hp
              exact ⟨e, ((hm e).1 h1).1, h2⟩
            have hf' : fed s p := by
              obtain ⟨q, h1, e, h2, h3⟩ := hfp
              exact ⟨q, by rw [← h7 p hpo]; exact h1, e, by rw [← h4]; exact h2, h3⟩
            obtain ⟨b1, b2⟩ := hb p hs hf'
            rw [h7 p hpo]
            refine ⟨fun x hx => ?_, b2⟩
            obtain ⟨e, h1, h2, h3⟩ := b1 x hx
            refine ⟨e, (hm e).2 ⟨h1, fun hk => ?_⟩, h2, h3⟩
            rw [hi.rUnique h1 hem hk] at h3
            cases h3
            exact hpo rfl
    | roundW f =>
      obtain ⟨t', h1, _, h3, h4, h5, _⟩ := sweepW_ok hi f
      simp only [step] at hs
      rw [h1] at hs; cases hs
      exact back_ws hb h4 h5 (fun e he => ((h3 e).1 he).1)
    | roundR f strict =>
      simp only [step] at hs
      cases h1 : sweepR s f strict with
      | ub => rw [h1] at hs; cases hs
      | hang => rw [h1] at hs; cases hs
      | ok u =>
        rw [h1] at hs; cases hs
        exact sweepListR_back _ h1 hi (fun e he => (List.mem_filter.1 he).1) (hi.rKey.filter _) hg hb

end Lms.Wired
