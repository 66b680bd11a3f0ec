import Verif.QueueLife.Spec

namespace Lms.QueueLife

@[simp] theorem upd_same {β : Type} (f : Nat → β) (i : Nat) (v : β) : upd f i v i = v := by simp [upd]
theorem upd_ne {β : Type} (f : Nat → β) {i j : Nat} (v : β) (h : j ≠ i) : upd f i v j = f j := by
  simp [upd, h]
theorem upd_upd {β : Type} (f : Nat → β) (i : Nat) (v v' : β) : upd (upd f i v) i v' = upd f i v' := by
  funext j; simp [upd]; split <;> rfl
theorem upd_self {β : Type} (f : Nat → β) (i : Nat) : upd f i (f i) = f := by
  funext j; simp [upd]; intro h; rw [h]

structure Rel (s : St) (t : Spec) : Prop where
  next : s.next = t.next
  log : s.log = t.log
  w : ∀ i, s.w i = (t.w i).map (·.1)
  rq : ∀ i, (s.r i).queue = (t.r i).map (·.1)
  rf : ∀ i, (s.r i).filters = ((t.r i).map (·.2)).getD []
  wAt : ∀ i q f, t.w i = some (q, f) → t.wAt q = some i
  rAt : ∀ i q fs, t.r i = some (q, fs) → t.rAt q = some i
  wAt' : ∀ i q, t.wAt q = some i → ∃ f, t.w i = some (q, f)
  rAt' : ∀ i q, t.rAt q = some i → ∃ fs, t.r i = some (q, fs)
  used : ∀ q, t.rAt q ≠ none → t.used q = true
  fresh : ∀ q, t.next ≤ q → s.heap q = .none ∧ t.wAt q = none ∧ t.rAt q = none ∧ q ∉ t.log
  fresh' : ∀ q, t.next ≤ q → t.used q = false
  dead : ∀ q, q < t.next → t.wAt q = none → t.rAt q = none → s.heap q = .freed ∧ q ∈ t.log
  live : ∀ q, (t.wAt q ≠ none ∨ t.rAt q ≠ none) → q ∉ t.log ∧
    ∃ ids, s.heap q = .live ((t.wAt q).isSome && (t.rAt q).isSome) ids ∧
      (∀ j fs, t.r j = some (q, fs) → ids = fs ∧ fs ≠ [] ∧ fs.Nodup) ∧
      (t.used q = false → ∀ i f, t.w i = some (q, f) → ids = [f])
  nodup : t.log.Nodup

theorem Rel.lt {s : St} {t : Spec} (h : Rel s t) {q : Nat} (hq : t.wAt q ≠ none ∨ t.rAt q ≠ none) :
    q < t.next := by
  by_cases hlt : t.next ≤ q
  · have := h.fresh q hlt; simp [this] at hq
  · omega

theorem init_rel : Rel St.init Spec.init := by
  constructor <;> intros <;> simp_all [St.init, Spec.init]

/-- The reader lets go, the writer's end being still there or not. -/
theorem Rel.dropR {s : St} {t : Spec} (h : Rel s t) {r q : Nat} {fs : List Nat}
    (hr : t.r r = some (q, fs)) (s1 : St) (ids' : List Nat)
    (hids : s1.heap = upd s.heap q (.live (t.wAt q).isSome ids')) (hn : s1.next = s.next)
    (hl : s1.log = s.log) (hw : s1.w = s.w) (hr1 : ∀ i, i ≠ r → s1.r i = s.r i)
    (hr2 : (s1.r r).queue = some q) :
    ∃ s2, s1.disconnectQueue r = .ok (s2, true) ∧
      (∀ s3 : St, s3.heap = s2.heap → s3.next = s2.next → s3.log = s2.log → s3.w = s2.w →
        (∀ i, i ≠ r → s3.r i = s2.r i) → (s3.r r).queue = none → (s3.r r).filters = [] →
        Rel s3 (t.dropReader r q)) ∧ (s2.r r).queue = none ∧ (s2.r r).filters = (s1.r r).filters := by
  have hAt := h.rAt r q fs hr
  have hlive := h.live q (Or.inr (by simp [hAt]))
  have hlt := h.lt (q := q) (Or.inr (by simp [hAt]))
  obtain ⟨hnl, ids, hh, hfs, hus⟩ := hlive
  cases hc : (t.wAt q) with
  | none =>
    rw [hc] at hids
    refine ⟨{ s1 with heap := upd s1.heap q .freed, log := s1.log ++ [q]
                      r := upd s1.r r { s1.r r with queue := none } }, ?_, ?_, ?_⟩
    · unfold St.disconnectQueue
      rw [hr2]
      simp [St.letGo, St.connected, St.delete, hids]
    · intro s3 e1 e2 e3 e4 e5 e6 e7
      simp only [Spec.dropReader, hc, Option.isNone_none, if_true]
      have hheap : s3.heap = upd s.heap q .freed := by rw [e1]; simp only; rw [hids, upd_upd]
      constructor
      · rw [e2]; exact hn.trans h.next
      · rw [e3]; simp [hl, h.log]
      · intro i; rw [e4]; simp only; rw [hw]; exact h.w i
      · intro i; by_cases hi : i = r
        · subst hi; simp [e6]
        · rw [e5 i hi]; simp only; rw [upd_ne _ _ hi, hr1 i hi, upd_ne _ _ hi]; exact h.rq i
      · intro i; by_cases hi : i = r
        · subst hi; simp [e7]
        · rw [e5 i hi]; simp only; rw [upd_ne _ _ hi, hr1 i hi, upd_ne _ _ hi]; exact h.rf i
      · exact h.wAt
      · intro i q' fs' hi
        have hir : i ≠ r := by intro e; subst e; simp at hi
        simp only [upd_ne _ _ hir] at hi
        have := h.rAt i q' fs' hi
        have hq' : q' ≠ q := by intro e; subst e; rw [hAt] at this; simp at this; exact hir this.symm
        simp only [upd_ne _ _ hq']; exact this
      · exact h.wAt'
      · intro i q' hi
        have hq' : q' ≠ q := by intro e; subst e; simp at hi
        simp only [upd_ne _ _ hq'] at hi
        obtain ⟨fs', hfs'⟩ := h.rAt' i q' hi
        have hir : i ≠ r := by
          intro e; subst e; rw [hr] at hfs'; simp at hfs'; exact hq' hfs'.1.symm
        exact ⟨fs', by simp only [upd_ne _ _ hir]; exact hfs'⟩
      · intro q' hq'
        have hne : q' ≠ q := by intro e; subst e; simp at hq'
        simp only [upd_ne _ _ hne] at hq'
        exact h.used q' hq'
      · intro q' hq'
        have hne : q' ≠ q := by intro e; subst e; exact absurd hlt (by simpa using hq')
        have := h.fresh q' hq'
        rw [hheap]
        simp only [upd_ne _ _ hne]
        refine ⟨this.1, this.2.1, this.2.2.1, ?_⟩
        simp [this.2.2.2, hne]
      · exact h.fresh'
      · intro q' hq1 hq2 hq3
        rw [hheap]
        by_cases hne : q' = q
        · subst hne; simp
        · simp only [upd_ne _ _ hne] at hq3 ⊢
          have := h.dead q' hq1 hq2 hq3
          simp [this]
      · intro q' hq'
        have hne : q' ≠ q := by
          intro e; subst e; simp [hc] at hq'
        simp only [upd_ne _ _ hne] at hq'
        obtain ⟨g1, ids', g2, g3, g4⟩ := h.live q' hq'
        refine ⟨by simp [g1, hne], ids', ?_, ?_, ?_⟩
        · rw [hheap]; simp only [upd_ne _ _ hne]; exact g2
        · intro j fs' hj
          have hjr : j ≠ r := by intro e; subst e; simp at hj
          simp only [upd_ne _ _ hjr] at hj
          exact g3 j fs' hj
        · exact g4
      · rw [List.nodup_append]
        refine ⟨h.nodup, by simp, ?_⟩
        intro a ha b hb
        simp at hb; subst hb
        intro e; subst e; exact hnl ha
    · simp
  | some i0 =>
    rw [hc] at hids
    refine ⟨{ s1 with heap := upd s1.heap q (.live false ids')
                      r := upd s1.r r { s1.r r with queue := none } }, ?_, ?_, ?_⟩
    · unfold St.disconnectQueue
      rw [hr2]
      simp [St.letGo, St.connected, St.setConnected, hids]
    · intro s3 e1 e2 e3 e4 e5 e6 e7
      simp only [Spec.dropReader, hc, Option.isNone_some, Bool.false_eq_true, if_false]
      have hheap : s3.heap = upd s.heap q (.live false ids') := by rw [e1]; simp only; rw [hids, upd_upd]
      constructor
      · rw [e2]; exact hn.trans h.next
      · rw [e3]; simp [hl, h.log]
      · intro i; rw [e4]; simp only; rw [hw]; exact h.w i
      · intro i; by_cases hi : i = r
        · subst hi; simp [e6]
        · rw [e5 i hi]; simp only; rw [upd_ne _ _ hi, hr1 i hi, upd_ne _ _ hi]; exact h.rq i
      · intro i; by_cases hi : i = r
        · subst hi; simp [e7]
        · rw [e5 i hi]; simp only; rw [upd_ne _ _ hi, hr1 i hi, upd_ne _ _ hi]; exact h.rf i
      · exact h.wAt
      · intro i q' fs' hi
        have hir : i ≠ r := by intro e; subst e; simp at hi
        simp only [upd_ne _ _ hir] at hi
        have := h.rAt i q' fs' hi
        have hq' : q' ≠ q := by intro e; subst e; rw [hAt] at this; simp at this; exact hir this.symm
        simp only [upd_ne _ _ hq']; exact this
      · exact h.wAt'
      · intro i q' hi
        have hq' : q' ≠ q := by intro e; subst e; simp at hi
        simp only [upd_ne _ _ hq'] at hi
        obtain ⟨fs', hfs'⟩ := h.rAt' i q' hi
        have hir : i ≠ r := by
          intro e; subst e; rw [hr] at hfs'; simp at hfs'; exact hq' hfs'.1.symm
        exact ⟨fs', by simp only [upd_ne _ _ hir]; exact hfs'⟩
      · intro q' hq'
        have hne : q' ≠ q := by intro e; subst e; simp at hq'
        simp only [upd_ne _ _ hne] at hq'
        exact h.used q' hq'
      · intro q' hq'
        have hne : q' ≠ q := by intro e; subst e; exact absurd hlt (by simpa using hq')
        have := h.fresh q' hq'
        rw [hheap]
        simp only [upd_ne _ _ hne]
        exact this
      · exact h.fresh'
      · intro q' hq1 hq2 hq3
        rw [hheap]
        by_cases hne : q' = q
        · subst hne; simp [hc] at hq2
        · simp only [upd_ne _ _ hne] at hq3 ⊢
          exact h.dead q' hq1 hq2 hq3
      · intro q' hq'
        by_cases hne : q' = q
        · subst hne
          refine ⟨hnl, ids', ?_, ?_, ?_⟩
          · rw [hheap]; simp
          · intro j fs' hj
            have hjr : j ≠ r := by intro e; subst e; simp at hj
            simp only [upd_ne _ _ hjr] at hj
            have := h.rAt j _ _ hj
            rw [hAt] at this; simp at this; exact absurd this.symm hjr
          · intro hu
            have := h.used q' (by simp [hAt])
            simp only at hu
            rw [this] at hu; simp at hu
        · simp only [upd_ne _ _ hne] at hq'
          obtain ⟨g1, ids'', g2, g3, g4⟩ := h.live q' hq'
          refine ⟨g1, ids'', ?_, ?_, ?_⟩
          · rw [hheap]; simp only [upd_ne _ _ hne]; exact g2
          · intro j fs' hj
            have hjr : j ≠ r := by intro e; subst e; simp at hj
            simp only [upd_ne _ _ hjr] at hj
            exact g3 j fs' hj
          · exact g4
      · exact h.nodup
    · simp


/-- The writer lets go. -/
theorem Rel.dropW {s : St} {t : Spec} (h : Rel s t) {w q f : Nat} (hw : t.w w = some (q, f)) :
    ∃ s2, s.writerDisconnect w = .ok (s2, true) ∧ Rel s2 (t.dropWriter w q) := by
  have hAt := h.wAt w q f hw
  have hlive := h.live q (Or.inl (by simp [hAt]))
  have hlt := h.lt (q := q) (Or.inl (by simp [hAt]))
  obtain ⟨hnl, ids, hh, hfs, hus⟩ := hlive
  have hsw : s.w w = some q := by rw [h.w, hw]; rfl
  rw [hAt] at hh
  have hW : ∀ i q' f', (upd t.w w none) i = some (q', f') → i ≠ w ∧ t.w i = some (q', f') ∧ q' ≠ q := by
    intro i q' f' hi
    have hiw : i ≠ w := by intro e; subst e; simp at hi
    rw [upd_ne _ _ hiw] at hi
    refine ⟨hiw, hi, ?_⟩
    intro e; subst e
    have := h.wAt i _ _ hi
    rw [hAt] at this; simp at this; exact hiw this.symm
  have hsW : ∀ i, upd s.w w none i = ((upd t.w w none) i).map (·.1) := by
    intro i; by_cases hi : i = w
    · subst hi; simp
    · rw [upd_ne _ _ hi, upd_ne _ _ hi]; exact h.w i
  have hA : ∀ i q' f', (upd t.w w none) i = some (q', f') → (upd t.wAt q none) q' = some i := by
    intro i q' f' hi
    obtain ⟨_, h2, h3⟩ := hW i q' f' hi
    rw [upd_ne _ _ h3]; exact h.wAt i q' f' h2
  have hA' : ∀ i q', (upd t.wAt q none) q' = some i → ∃ f, (upd t.w w none) i = some (q', f) := by
    intro i q' hi
    have hq' : q' ≠ q := by intro e; subst e; simp at hi
    rw [upd_ne _ _ hq'] at hi
    obtain ⟨f', hf'⟩ := h.wAt' i q' hi
    have hiw : i ≠ w := by intro e; subst e; rw [hw] at hf'; simp at hf'; exact hq' hf'.1.symm
    exact ⟨f', by rw [upd_ne _ _ hiw]; exact hf'⟩
  cases hc : t.rAt q with
  | none =>
    rw [hc] at hh
    refine ⟨{ s with heap := upd s.heap q .freed, log := s.log ++ [q], w := upd s.w w none }, ?_, ?_⟩
    · unfold St.writerDisconnect
      rw [hsw]
      simp [St.letGo, St.connected, St.delete, hh]
    · simp only [Spec.dropWriter, hc, Option.isNone_none, if_true]
      refine ⟨h.next, by simp [h.log], hsW, h.rq, h.rf, hA, h.rAt, hA', h.rAt', h.used, ?_, h.fresh', ?_, ?_, ?_⟩
      · intro q' hq'
        have hne : q' ≠ q := by intro e; subst e; exact absurd hlt (by simpa using hq')
        have := h.fresh q' hq'
        simp [upd_ne _ _ hne, this, hne]
      · intro q' h1 h2 h3
        by_cases hne : q' = q
        · subst hne; simp
        · simp only [upd_ne _ _ hne] at h2 ⊢
          have := h.dead q' h1 h2 h3
          simp [this]
      · intro q' hq'
        have hne : q' ≠ q := by intro e; subst e; simp [hc] at hq'
        simp only [upd_ne _ _ hne] at hq' ⊢
        obtain ⟨g1, ids', g2, g3, g4⟩ := h.live q' hq'
        exact ⟨by simp [g1, hne], ids', g2, g3, fun hu i f' hi => g4 hu i f' (hW i _ _ hi).2.1⟩
      · rw [List.nodup_append]
        refine ⟨h.nodup, by simp, ?_⟩
        intro a ha b hb
        simp at hb; subst hb
        intro e; subst e; exact hnl ha
  | some r0 =>
    rw [hc] at hh
    refine ⟨{ s with heap := upd s.heap q (.live false ids), w := upd s.w w none }, ?_, ?_⟩
    · unfold St.writerDisconnect
      rw [hsw]
      simp [St.letGo, St.connected, St.setConnected, hh]
    · simp only [Spec.dropWriter, hc, Option.isNone_some, Bool.false_eq_true, if_false]
      refine ⟨h.next, by simp [h.log], hsW, h.rq, h.rf, hA, h.rAt, hA', h.rAt', h.used, ?_, h.fresh', ?_, ?_, h.nodup⟩
      · intro q' hq'
        have hne : q' ≠ q := by intro e; subst e; exact absurd hlt (by simpa using hq')
        have := h.fresh q' hq'
        simp [upd_ne _ _ hne, this]
      · intro q' h1 h2 h3
        by_cases hne : q' = q
        · subst hne; rw [hc] at h3; simp at h3
        · simp only [upd_ne _ _ hne] at h2 ⊢
          exact h.dead q' h1 h2 h3
      · intro q' hq'
        by_cases hne : q' = q
        · subst hne
          refine ⟨hnl, ids, by simp, hfs, ?_⟩
          intro hu
          have := h.used q' (by simp [hc])
          simp only at hu
          rw [this] at hu; simp at hu
        · simp only [upd_ne _ _ hne] at hq' ⊢
          obtain ⟨g1, ids', g2, g3, g4⟩ := h.live q' hq'
          exact ⟨g1, ids', g2, g3, fun hu i f' hi => g4 hu i f' (hW i _ _ hi).2.1⟩

theorem erase_filter {l : List Nat} (h : l.Nodup) (f : Nat) : l.erase f = l.filter (· ≠ f) := by
  rw [List.Nodup.erase_eq_filter h]
  apply List.filter_congr
  intro x _
  by_cases hx : x = f <;> simp [hx]

theorem step_rel (s : St) (t : Spec) (op : Op) (hsafe : Safe t op) (h : Rel s t) :
    ∃ s', s.step op = .ok (s', (t.step op).2) ∧ Rel s' (t.step op).1 := by
  cases op with
  | give w f =>
    simp only [St.step, Spec.step, h.next]
    refine ⟨_, rfl, ?_⟩
    have hw : t.w w = none := hsafe
    have hf := h.fresh t.next (Nat.le_refl _)
    have hnext : ∀ q, t.wAt q ≠ none ∨ t.rAt q ≠ none → q ≠ t.next := by
      intro q hq; have := h.lt hq; omega
    constructor
    · rfl
    · exact h.log
    · intro i; by_cases hi : i = w
      · subst hi; simp
      · simp only [upd_ne _ _ hi]; exact h.w i
    · exact h.rq
    · exact h.rf
    · intro i q f' hi
      by_cases hiw : i = w
      · subst hiw; simp at hi; obtain ⟨rfl, rfl⟩ := hi; simp
      · simp only [upd_ne _ _ hiw] at hi
        have := h.wAt i q f' hi
        have hq := hnext q (Or.inl (by simp [this]))
        simp only [upd_ne _ _ hq]; exact this
    · exact h.rAt
    · intro i q hi
      by_cases hq : q = t.next
      · subst hq; simp at hi; subst hi; exact ⟨f, by simp⟩
      · simp only [upd_ne _ _ hq] at hi
        obtain ⟨f', hf'⟩ := h.wAt' i q hi
        have hiw : i ≠ w := by intro e; subst e; rw [hw] at hf'; simp at hf'
        exact ⟨f', by simp only [upd_ne _ _ hiw]; exact hf'⟩
    · exact h.rAt'
    · exact h.used
    · intro q hq
      have hq : t.next + 1 ≤ q := hq
      have hne : q ≠ t.next := by omega
      simp only [upd_ne _ _ hne]
      exact h.fresh q (by omega)
    · intro q hq
      have hq : t.next + 1 ≤ q := hq
      exact h.fresh' q (by omega)
    · intro q h1 h2 h3
      have h1 : q < t.next + 1 := h1
      by_cases hne : q = t.next
      · subst hne; simp at h2
      · simp only [upd_ne _ _ hne] at h2 ⊢
        exact h.dead q (by omega) h2 h3
    · intro q hq
      by_cases hne : q = t.next
      · subst hne
        refine ⟨hf.2.2.2, [f], by simp [hf.2.2.1], ?_, ?_⟩
        · intro j fs hj
          have := h.rAt j _ _ hj
          rw [hf.2.2.1] at this; simp at this
        · intro _ i f' hi
          by_cases hiw : i = w
          · subst hiw; simp at hi; simp [hi]
          · simp only [upd_ne _ _ hiw] at hi
            have := h.wAt i _ _ hi
            rw [hf.2.1] at this; simp at this
      · simp only [upd_ne _ _ hne] at hq ⊢
        obtain ⟨g1, ids', g2, g3, g4⟩ := h.live q hq
        refine ⟨g1, ids', g2, g3, ?_⟩
        intro hu i f' hi
        by_cases hiw : i = w
        · subst hiw; simp at hi; exact absurd hi.1.symm hne
        · simp only [upd_ne _ _ hiw] at hi
          exact g4 hu i f' hi
    · exact h.nodup
  | connect w r =>
    simp only [St.step, Spec.step, St.connect]
    rw [h.w]
    rcases hw : t.w w with _ | ⟨q, f⟩
    · exact ⟨s, rfl, h⟩
    · obtain ⟨hu, hr⟩ := hsafe q f hw
      have hAt := h.wAt w q f hw
      have hrA : t.rAt q = none := by
        cases hc : t.rAt q with
        | none => rfl
        | some x =>
          have := h.used q (by simp [hc])
          rw [hu] at this; simp at this
      have hlt := h.lt (q := q) (Or.inl (by simp [hAt]))
      obtain ⟨hnl, ids, hh, hfs, hus⟩ := h.live q (Or.inl (by simp [hAt]))
      have hids := hus hu w f hw
      subst hids
      have hq : (s.r r).queue = none := by rw [h.rq, hr]; rfl
      have hf0 : (s.r r).filters = [] := by rw [h.rf, hr]; rfl
      rw [hAt, hrA] at hh
      have hh : s.heap q = .live false [f] := hh
      simp only [Option.map_some, St.readerConnected, hq, Outcome.bind_ok, Bool.false_eq_true, if_false,
        hh, hf0, List.not_mem_nil, List.nil_append, St.setConnected]
      refine ⟨_, rfl, ?_⟩
      constructor
      · exact h.next
      · exact h.log
      · exact h.w
      · intro i; by_cases hi : i = r
        · subst hi; simp
        · simp only [upd_ne _ _ hi]; exact h.rq i
      · intro i; by_cases hi : i = r
        · subst hi; simp
        · simp only [upd_ne _ _ hi]; exact h.rf i
      · exact h.wAt
      · intro i q' fs hi
        by_cases hir : i = r
        · subst hir; simp at hi; obtain ⟨rfl, rfl⟩ := hi; simp
        · simp only [upd_ne _ _ hir] at hi
          have := h.rAt i q' fs hi
          have hne : q' ≠ q := by intro e; subst e; rw [hrA] at this; simp at this
          simp only [upd_ne _ _ hne]; exact this
      · exact h.wAt'
      · intro i q' hi
        by_cases hne : q' = q
        · subst hne; simp at hi; subst hi; exact ⟨[f], by simp⟩
        · simp only [upd_ne _ _ hne] at hi
          obtain ⟨fs, hfs'⟩ := h.rAt' i q' hi
          have hir : i ≠ r := by intro e; subst e; rw [hr] at hfs'; simp at hfs'
          exact ⟨fs, by simp only [upd_ne _ _ hir]; exact hfs'⟩
      · intro q' hq'
        by_cases hne : q' = q
        · subst hne; simp
        · simp only [upd_ne _ _ hne] at hq' ⊢; exact h.used q' hq'
      · intro q' hq'
        have hne : q' ≠ q := by intro e; subst e; exact absurd hlt (by simpa using hq')
        simp only [upd_ne _ _ hne]
        exact h.fresh q' hq'
      · intro q' hq'
        have hne : q' ≠ q := by intro e; subst e; exact absurd hlt (by simpa using hq')
        simp only [upd_ne _ _ hne]
        exact h.fresh' q' hq'
      · intro q' h1 h2 h3
        have hne : q' ≠ q := by intro e; subst e; rw [hAt] at h2; simp at h2
        simp only [upd_ne _ _ hne] at h3 ⊢
        exact h.dead q' h1 h2 h3
      · intro q' hq'
        by_cases hne : q' = q
        · subst hne
          refine ⟨hnl, [f], by simp [hAt], ?_, ?_⟩
          · intro j fs hj
            by_cases hjr : j = r
            · subst hjr; simp at hj; subst hj; simp
            · simp only [upd_ne _ _ hjr] at hj
              have := h.rAt j _ _ hj
              rw [hrA] at this; simp at this
          · intro hu'; simp at hu'
        · simp only [upd_ne _ _ hne] at hq' ⊢
          obtain ⟨g1, ids', g2, g3, g4⟩ := h.live q' hq'
          refine ⟨g1, ids', g2, ?_, g4⟩
          intro j fs hj
          by_cases hjr : j = r
          · subst hjr; simp at hj; exact absurd hj.1.symm hne
          · simp only [upd_ne _ _ hjr] at hj
            exact g3 j fs hj
      · exact h.nodup
  | share r f =>
    simp only [St.step, Spec.step, St.addReader]
    rw [h.rq]
    rcases hr : t.r r with _ | ⟨q, fs⟩
    · exact ⟨s, rfl, h⟩
    · have hAt := h.rAt r q fs hr
      obtain ⟨hnl, ids, hh, hfs, hus⟩ := h.live q (Or.inr (by simp [hAt]))
      obtain ⟨rfl, hne0, hnd⟩ := hfs r fs hr
      have hflt : (s.r r).filters = ids := by rw [h.rf, hr]; rfl
      cases hc : t.wAt q with
      | none =>
        rw [hc] at hh
        simp only [Option.map_some, St.connected, hh, Outcome.bind_ok, hc]
        exact ⟨s, rfl, by simpa using h⟩
      | some i0 =>
        rw [hc, hAt] at hh
        simp only [Option.map_some, St.connected, hh, Outcome.bind_ok, hc]
        by_cases hf : f ∈ ids
        · simp only [hf, or_true, if_true]
          exact ⟨s, rfl, h⟩
        · simp only [hf, or_false]
          refine ⟨_, by simp; rfl, ?_⟩
          simp only [Option.isNone_some, Bool.false_eq_true, if_false]
          constructor
          · exact h.next
          · exact h.log
          · exact h.w
          · intro i; by_cases hi : i = r
            · subst hi; simp [h.rq, hr]
            · simp only [upd_ne _ _ hi]; exact h.rq i
          · intro i; by_cases hi : i = r
            · subst hi; simp [hflt]
            · simp only [upd_ne _ _ hi]; exact h.rf i
          · exact h.wAt
          · intro i q' fs' hi
            by_cases hir : i = r
            · subst hir; simp at hi; rw [← hi.1]; exact hAt
            · simp only [upd_ne _ _ hir] at hi
              exact h.rAt i q' fs' hi
          · exact h.wAt'
          · intro i q' hi
            by_cases hir : i = r
            · subst hir
              obtain ⟨fs', hfs'⟩ := h.rAt' _ q' hi
              rw [hr] at hfs'; simp at hfs'
              exact ⟨ids ++ [f], by simp [hfs'.1]⟩
            · obtain ⟨fs', hfs'⟩ := h.rAt' i q' hi
              exact ⟨fs', by simp only [upd_ne _ _ hir]; exact hfs'⟩
          · exact h.used
          · intro q' hq'
            have hlt := h.lt (q := q) (Or.inr (by simp [hAt]))
            have hne : q' ≠ q := by intro e; subst e; exact absurd hlt (by simpa using hq')
            simp only [upd_ne _ _ hne]
            exact h.fresh q' hq'
          · exact h.fresh'
          · intro q' h1 h2 h3
            have hne : q' ≠ q := by intro e; subst e; rw [hAt] at h3; simp at h3
            simp only [upd_ne _ _ hne]
            exact h.dead q' h1 h2 h3
          · intro q' hq'
            by_cases hne : q' = q
            · subst hne
              refine ⟨hnl, ids ++ [f], by simp [hc, hAt], ?_, ?_⟩
              · intro j fs' hj
                by_cases hjr : j = r
                · subst hjr; simp at hj; subst hj
                  refine ⟨rfl, by simp, ?_⟩
                  rw [List.nodup_append]
                  exact ⟨hnd, by simp, by intro a ha b hb; simp at hb; subst hb; intro e; subst e; exact hf ha⟩
                · simp only [upd_ne _ _ hjr] at hj
                  have := h.rAt j _ _ hj
                  rw [hAt] at this; simp at this; exact absurd this.symm hjr
              · intro hu
                have := h.used q' (by simp [hAt])
                simp only at hu
                rw [this] at hu; simp at hu
            · obtain ⟨g1, ids', g2, g3, g4⟩ := h.live q' hq'
              simp only [upd_ne _ _ hne]
              refine ⟨g1, ids', g2, ?_, g4⟩
              intro j fs' hj
              by_cases hjr : j = r
              · subst hjr; simp at hj; exact absurd hj.1.symm hne
              · simp only [upd_ne _ _ hjr] at hj
                exact g3 j fs' hj
          · exact h.nodup
  | leave r f =>
    simp only [St.step, Spec.step, St.readerDisconnect]
    rw [h.rf]
    rcases hr : t.r r with _ | ⟨q, fs⟩
    · exact ⟨s, by simp, h⟩
    · have hAt := h.rAt r q fs hr
      have hrq : (s.r r).queue = some q := by rw [h.rq, hr]; rfl
      obtain ⟨hnl, ids, hh, hfs, hus⟩ := h.live q (Or.inr (by simp [hAt]))
      obtain ⟨rfl, hne0, hnd⟩ := hfs r fs hr
      have hrf : (s.r r).filters = ids := by rw [h.rf, hr]; rfl
      simp only [Option.map_some, Option.getD_some]
      by_cases hf : f ∈ ids
      · simp only [hf, not_true, if_false, St.dropId, hrf, upd_same, hrq, St.removeId, hh, Outcome.bind_ok,
          erase_filter hnd]
        by_cases he : ids.filter (· ≠ f) = []
        · simp only [he, ne_eq, not_true, if_false, if_true]
          obtain ⟨s2, e1, e2, e3, e4⟩ := h.dropR hr
            { s with heap := upd s.heap q (.live ((t.wAt q).isSome && (t.rAt q).isSome) [])
                     r := upd s.r r { queue := some q, filters := [] } } []
            (by simp [hAt]) rfl rfl rfl (fun i hi => by simp [upd_ne _ _ hi]) (by simp)
          refine ⟨s2, e1, ?_⟩
          refine e2 s2 rfl rfl rfl rfl (fun _ _ => rfl) e3 ?_
          rw [e4]; simp
        · simp only [he, ne_eq, not_false_eq_true, if_true, if_false]
          refine ⟨_, rfl, ?_⟩
          constructor
          · exact h.next
          · exact h.log
          · exact h.w
          · intro i; by_cases hi : i = r
            · subst hi; simp
            · simp only [upd_ne _ _ hi]; exact h.rq i
          · intro i; by_cases hi : i = r
            · subst hi; simp
            · simp only [upd_ne _ _ hi]; exact h.rf i
          · exact h.wAt
          · intro i q' fs' hi
            by_cases hir : i = r
            · subst hir; simp at hi; rw [← hi.1]; exact hAt
            · simp only [upd_ne _ _ hir] at hi
              exact h.rAt i q' fs' hi
          · exact h.wAt'
          · intro i q' hi
            by_cases hir : i = r
            · subst hir
              obtain ⟨fs', hfs'⟩ := h.rAt' _ q' hi
              rw [hr] at hfs'; simp at hfs'
              exact ⟨_, by simp [hfs'.1]; rfl⟩
            · obtain ⟨fs', hfs'⟩ := h.rAt' i q' hi
              exact ⟨fs', by simp only [upd_ne _ _ hir]; exact hfs'⟩
          · exact h.used
          · intro q' hq'
            have hlt := h.lt (q := q) (Or.inr (by simp [hAt]))
            have hne : q' ≠ q := by intro e; subst e; exact absurd hlt (by simpa using hq')
            simp only [upd_ne _ _ hne]
            exact h.fresh q' hq'
          · exact h.fresh'
          · intro q' h1 h2 h3
            have hne : q' ≠ q := by intro e; subst e; rw [hAt] at h3; simp at h3
            simp only [upd_ne _ _ hne]
            exact h.dead q' h1 h2 h3
          · intro q' hq'
            by_cases hne : q' = q
            · subst hne
              refine ⟨hnl, ids.filter (· ≠ f), by simp, ?_, ?_⟩
              · intro j fs' hj
                by_cases hjr : j = r
                · subst hjr
                  have hj : some (q', ids.filter (· ≠ f)) = some (q', fs') := by simpa using hj
                  injection hj with hj; injection hj with _ hj
                  rw [← hj]
                  exact ⟨rfl, he, hnd.filter _⟩
                · simp only [upd_ne _ _ hjr] at hj
                  have := h.rAt j _ _ hj
                  rw [hAt] at this; simp at this; exact absurd this.symm hjr
              · intro hu
                have := h.used q' (by simp [hAt])
                simp only at hu
                rw [this] at hu; simp at hu
            · obtain ⟨g1, ids', g2, g3, g4⟩ := h.live q' hq'
              simp only [upd_ne _ _ hne]
              refine ⟨g1, ids', g2, ?_, g4⟩
              intro j fs' hj
              by_cases hjr : j = r
              · subst hjr; simp at hj; exact absurd hj.1.symm hne
              · simp only [upd_ne _ _ hjr] at hj
                exact g3 j fs' hj
          · exact h.nodup
      · simp only [hf, not_false_eq_true, if_true]
        exact ⟨s, rfl, h⟩
  | drop r =>
    simp only [St.step, Spec.step]
    rcases hr : t.r r with _ | ⟨q, fs⟩
    · have hrq : (s.r r).queue = none := by rw [h.rq, hr]; rfl
      have hrf : (s.r r).filters = [] := by rw [h.rf, hr]; rfl
      have e : s.r r = ⟨none, []⟩ := by
        rcases hx : s.r r with ⟨a, b⟩
        rw [hx] at hrq hrf; simp at hrq hrf; simp [hrq, hrf]
      simp only [St.disconnectQueue, hrq, Outcome.bind_ok]
      rw [← e, upd_self]
      exact ⟨s, rfl, h⟩
    · have hAt := h.rAt r q fs hr
      have hrq : (s.r r).queue = some q := by rw [h.rq, hr]; rfl
      obtain ⟨hnl, ids, hh, hfs, hus⟩ := h.live q (Or.inr (by simp [hAt]))
      obtain ⟨s2, e1, e2, e3, e4⟩ := h.dropR hr s ids
        (by rw [← upd_self s.heap q]; simp [upd_upd, hh, hAt]) rfl rfl rfl (fun _ _ => rfl) hrq
      rw [e1]
      simp only [Outcome.bind_ok]
      exact ⟨_, rfl, e2 _ rfl rfl rfl rfl (fun i hi => by simp [upd_ne _ _ hi]) (by simp) (by simp)⟩
  | wdisc w =>
    simp only [St.step, Spec.step]
    rcases hw : t.w w with _ | ⟨q, f⟩
    · simp only [St.writerDisconnect]
      rw [h.w, hw]
      exact ⟨s, rfl, h⟩
    · obtain ⟨s2, e1, e2⟩ := h.dropW hw
      exact ⟨s2, e1, e2⟩
  | rget r f =>
    simp only [St.step, Spec.step, St.readerConnected]
    rw [h.rq]
    rcases hr : t.r r with _ | ⟨q, fs⟩
    · exact ⟨s, by simp, h⟩
    · have hAt := h.rAt r q fs hr
      obtain ⟨hnl, ids, hh, hfs, hus⟩ := h.live q (Or.inr (by simp [hAt]))
      have hrf : (s.r r).filters = fs := by rw [h.rf, hr]; rfl
      simp only [Option.map_some, St.connected, hh, Outcome.bind_ok, hAt, hrf]
      exact ⟨s, by simp, h⟩
  | wget w =>
    simp only [St.step, Spec.step]
    rw [h.w]
    rcases hw : t.w w with _ | ⟨q, f⟩
    · exact absurd hw hsafe
    · have hAt := h.wAt w q f hw
      obtain ⟨hnl, ids, hh, hfs, hus⟩ := h.live q (Or.inl (by simp [hAt]))
      simp only [Option.map_some, St.connected, hh, Outcome.bind_ok, hAt]
      exact ⟨s, by simp, h⟩

end Lms.QueueLife
