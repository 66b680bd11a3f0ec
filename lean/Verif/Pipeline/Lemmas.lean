import Verif.Pipeline.Spec

/-! Helper lemmas for the pipeline manager. -/

namespace Lms.Pipeline

theorem lookup_isSome {β : Type} {m : List (Int × β)} {k : Int} :
    (lookup m k).isSome = true ↔ ∃ v, (k, v) ∈ m := by
  induction m with
  | nil => simp [lookup]
  | cons e m ih =>
    obtain ⟨k', v'⟩ := e
    simp only [lookup]
    split
    · rename_i h; subst h; simp
    · rename_i h
      rw [ih]; simp only [List.mem_cons, Prod.mk.injEq]
      constructor
      · rintro ⟨v, hv⟩; exact ⟨v, Or.inr hv⟩
      · rintro ⟨v, hv⟩
        rcases hv with ⟨h', _⟩ | hv
        · exact absurd h'.symm h
        · exact ⟨v, hv⟩

theorem lookup_isNone {β : Type} {m : List (Int × β)} {k : Int} :
    (lookup m k).isNone = true ↔ ¬ ∃ v, (k, v) ∈ m := by
  rw [← lookup_isSome]; cases lookup m k <;> simp

theorem lookup_mem {β : Type} {m : List (Int × β)} {k : Int} {v : β} (h : lookup m k = some v) :
    (k, v) ∈ m := by
  induction m with
  | nil => simp [lookup] at h
  | cons e m ih =>
    obtain ⟨k', v'⟩ := e
    simp only [lookup] at h
    split at h
    · rename_i hk; subst hk; simp at h; subst h; simp
    · exact List.mem_cons_of_mem _ (ih h)

theorem lookup_of_mem {β : Type} {m : List (Int × β)} {k : Int} {v : β}
    (hn : (m.map (·.1)).Nodup) (h : (k, v) ∈ m) : lookup m k = some v := by
  induction m with
  | nil => simp at h
  | cons e m ih =>
    obtain ⟨k', v'⟩ := e
    simp only [List.map_cons, List.nodup_cons, List.mem_map] at hn
    simp only [lookup]
    rcases List.mem_cons.1 h with h | h
    · simp only [Prod.mk.injEq] at h; simp [h.1, h.2]
    · split
      · rename_i hk; subst hk; exact absurd ⟨_, h, rfl⟩ hn.1
      · exact ih hn.2 h

theorem mem_erase {β : Type} {m : List (Int × β)} {k : Int} {e : Int × β} :
    e ∈ erase m k ↔ e ∈ m ∧ e.1 ≠ k := by simp [erase]

theorem erase_nodup {β : Type} {m : List (Int × β)} {k : Int} (h : (m.map (·.1)).Nodup) :
    ((erase m k).map (·.1)).Nodup :=
  h.sublist (List.Sublist.map _ List.filter_sublist)

theorem hasFilter_iff {p : Path} {f : Int} : p.hasFilter f = true ↔ Uses p f := by
  simp only [Path.hasFilter, Uses, Bool.or_eq_true, List.contains_iff_mem, beq_iff_eq]
  constructor
  · rintro (h | h | h) <;> simp [h]
  · rintro (h | h | h) <;> simp [h]

theorem usedByOthers_iff {s : S} {id f : Int} : usedByOthers s id f = true ↔ InUseByOther s id f := by
  simp [usedByOthers, InUseByOther, hasFilter_iff]

/-- `WF` without the parts about paths, in a state whose pool exists. -/
structure Core (s : S) : Prop where
  filterIds : (s.filters.map (·.1)).Nodup
  tasks : s.pool = some s.filters
  objects : (s.filters.map (·.2) ++ s.deleted).Nodup
  allObjects : ∀ o, o < s.next ↔ (o ∈ s.filters.map (·.2) ∨ o ∈ s.deleted)
  nonneg : ∀ e ∈ s.filters, 0 ≤ e.1

theorem split_of_mem {β : Type} {m : List (Int × β)} {k : Int} {v : β}
    (hn : (m.map (·.1)).Nodup) (h : (k, v) ∈ m) :
    ∃ a b, m = a ++ (k, v) :: b ∧ erase m k = a ++ b := by
  obtain ⟨a, b, rfl⟩ := List.append_of_mem h
  refine ⟨a, b, rfl, ?_⟩
  simp only [List.map_append, List.map_cons, List.nodup_append, List.nodup_cons] at hn
  obtain ⟨_, ⟨hb, _⟩, hab⟩ := hn
  have ha' : a.filter (fun e => e.1 ≠ k) = a := by
    apply List.filter_eq_self.2
    intro e he
    have := hab e.1 (List.mem_map_of_mem he) k (by simp)
    simpa using this
  have hb' : b.filter (fun e => e.1 ≠ k) = b := by
    apply List.filter_eq_self.2
    intro e he
    have : e.1 ≠ k := by
      intro hk; exact hb (hk ▸ List.mem_map_of_mem he)
    simpa using this
  simp only [erase, List.filter_append, List.filter_cons, ha', hb']
  simp

theorem core_drop {s : S} {id : Int} {o : Nat} (h : Core s) (ho : (id, o) ∈ s.filters) :
    o ∉ s.deleted ∧
    Core { s with deleted := o :: s.deleted, filters := erase s.filters id,
                  pool := some (erase s.filters id) } := by
  obtain ⟨a, b, hf, he⟩ := split_of_mem h.filterIds ho
  have hob := h.objects
  rw [hf] at hob
  constructor
  · intro hd
    rw [List.nodup_append] at hob
    exact hob.2.2 o (by simp) o hd rfl
  · refine ⟨erase_nodup h.filterIds, rfl, ?_, ?_, ?_⟩
    · show ((erase s.filters id).map (·.2) ++ o :: s.deleted).Nodup
      rw [he]
      refine (List.Perm.nodup_iff ?_).1 hob
      simp only [List.map_append, List.map_cons, List.append_assoc, List.cons_append]
      refine List.Perm.append_left _ ?_
      exact (List.perm_middle).symm
    · intro x
      show x < s.next ↔ (x ∈ (erase s.filters id).map (·.2) ∨ x ∈ o :: s.deleted)
      rw [h.allObjects x, he, hf]
      simp only [List.map_append, List.map_cons, List.mem_append, List.mem_cons]
      grind
    · intro e he'
      exact h.nonneg e (mem_erase.1 he').1

theorem dropFilter_ok {s : S} {id : Int} (h : Core s) :
    ∃ s', dropFilter s id = .ok s' ∧ Core s' ∧ s'.filters = erase s.filters id ∧ s'.paths = s.paths ∧
      s'.freedPaths = s.freedPaths ∧ s'.workers = s.workers ∧ s'.next = s.next := by
  simp only [dropFilter, removeTask, h.tasks, Outcome.bind_ok]
  cases hl : lookup s.filters id with
  | none =>
    have he : erase s.filters id = s.filters := by
      apply List.filter_eq_self.2
      intro e hem
      have : ¬ ∃ v, (id, v) ∈ s.filters := lookup_isNone.1 (by simp [hl])
      simp only [ne_eq, decide_eq_true_eq]
      intro hk
      exact this ⟨e.2, by rw [← hk]; exact hem⟩
    refine ⟨_, rfl, ⟨h.filterIds, ?_, h.objects, h.allObjects, h.nonneg⟩, he.symm, rfl, rfl, rfl, rfl⟩
    simp [he]
  | some o =>
    obtain ⟨hd, hc⟩ := core_drop h (lookup_mem hl)
    simp only [hd, if_false]
    exact ⟨_, rfl, hc, rfl, rfl, rfl, rfl, rfl⟩

theorem reg_erase {s s' : S} {id : Int} (h : s'.filters = erase s.filters id) (f : Int) :
    Reg s' f ↔ Reg s f ∧ f ≠ id := by
  simp only [Reg, h, mem_erase]
  constructor
  · rintro ⟨o, h1, h2⟩; exact ⟨⟨o, h1⟩, h2⟩
  · rintro ⟨⟨o, h1⟩, h2⟩; exact ⟨o, h1, h2⟩

theorem dropMids_ok {ms : List Int} : ∀ {s : S}, Core s → ms.Nodup → (∀ m ∈ ms, Reg s m) →
    ∃ s', dropMids s ms = .ok s' ∧ Core s' ∧ (∀ f, Reg s' f ↔ Reg s f ∧ f ∉ ms) ∧
      s'.paths = s.paths ∧ s'.freedPaths = s.freedPaths ∧ s'.workers = s.workers ∧ s'.next = s.next := by
  induction ms with
  | nil => intro s h _ _; exact ⟨s, rfl, h, by simp, rfl, rfl, rfl, rfl⟩
  | cons m ms ih =>
    intro s h hn hr
    have hm : ¬ (lookup s.filters m).isNone = true := by
      rw [lookup_isNone]; simpa [Reg] using hr m (by simp)
    obtain ⟨s1, e1, c1, f1, p1, q1, w1, n1⟩ := dropFilter_ok (id := m) h
    rw [List.nodup_cons] at hn
    obtain ⟨s2, e2, c2, f2, p2, q2, w2, n2⟩ := ih c1 hn.2 (by
      intro x hx
      rw [reg_erase f1]
      refine ⟨hr x (by simp [hx]), ?_⟩
      rintro rfl; exact hn.1 hx)
    refine ⟨s2, ?_, c2, ?_, p2.trans p1, q2.trans q1, w2.trans w1, n2.trans n1⟩
    · simp only [dropMids, hm, e1, Outcome.bind_ok, e2]; simp
    · intro f
      rw [f2, reg_erase f1]; simp only [List.mem_cons, not_or]
      grind

theorem Core.toWF {s : S} (h : Core s) (hp : (s.paths.map (·.1)).Nodup) (ha : s.freedPaths = [])
    (hs : ∀ e ∈ s.paths, e.2.mids.Nodup ∧ e.2.org ∉ e.2.mids ∧ e.2.dst ∉ e.2.mids) : WF s :=
  ⟨h.filterIds, hp, fun rs hrs => by rw [h.tasks] at hrs; exact (Option.some.inj hrs).symm,
   fun hn => absurd (h.tasks.symm.trans hn) (by simp), h.objects, h.allObjects, h.nonneg, ha, hs⟩

theorem WF.core {s : S} (h : WF s) (hp : s.pool ≠ none) : Core s := by
  cases hq : s.pool with
  | none => exact absurd hq hp
  | some rs => exact ⟨h.filterIds, by rw [hq, h.tasks rs hq], h.objects, h.allObjects, h.nonneg⟩

/-- Which filters disappear with a path. -/
def Gone (s : S) (id : Int) (p : Path) (f : Int) : Prop :=
  f ∈ p.mids ∨ ((f = p.org ∨ f = p.dst) ∧ ¬ InUseByOther s id f)

theorem inUseByOther_congr {s s' : S} (h : s'.paths = s.paths) (id f : Int) :
    InUseByOther s' id f ↔ InUseByOther s id f := by simp [InUseByOther, h]

theorem condDrop_ok {s : S} (b : Bool) (f : Int) (h : Core s) :
    ∃ s', (if b = true then Outcome.ok s else dropFilter s f) = .ok s' ∧ Core s' ∧
      (∀ x, Reg s' x ↔ Reg s x ∧ ¬ (x = f ∧ b = false)) ∧ s'.paths = s.paths ∧
      s'.freedPaths = s.freedPaths ∧ s'.workers = s.workers ∧ s'.next = s.next := by
  cases b with
  | true => exact ⟨s, by simp, h, by simp, rfl, rfl, rfl, rfl⟩
  | false =>
    obtain ⟨s1, e1, c1, f1, r⟩ := dropFilter_ok (id := f) h
    refine ⟨s1, by simp [e1], c1, ?_, r⟩
    intro x; rw [reg_erase f1]; simp

/-- The full effect of `deletePath` on a path whose filters are all registered. -/
theorem deletePath_ok {s : S} {id : Int} {p : Path} (h : Core s) (hp : lookup s.paths id = some p)
    (ha : s.freedPaths = []) (hn : p.mids.Nodup) (hr : ∀ f, Uses p f → Reg s f) :
    ∃ s', deletePath s id true = .ok (s', true) ∧ Core s' ∧ s'.paths = s.paths ∧
      s'.freedPaths = [id] ∧ s'.workers = s.workers ∧ s'.next = s.next ∧
      ∀ f, Reg s' f ↔ Reg s f ∧ ¬ Gone s id p f := by
  have hreg : ∀ f, Reg s f → (lookup s.filters f).isNone = false := by
    intro f hf
    have : ¬ (lookup s.filters f).isNone = true := by rw [lookup_isNone]; simpa [Reg] using hf
    exact Bool.eq_false_iff.2 this
  have ho := hreg p.org (hr _ (by simp [Uses]))
  have hd := hreg p.dst (hr _ (by simp [Uses]))
  have hm : (p.mids.any fun m => (lookup s.filters m).isNone) = false := by
    rw [List.any_eq_false]
    intro m hm
    rw [hreg m (hr _ (by simp [Uses, hm]))]; simp
  obtain ⟨s1, e1, c1, f1, p1, q1, w1, n1⟩ := dropMids_ok (ms := p.mids.reverse) h ((List.reverse_perm _).nodup_iff.2 hn)
    (fun m hm => hr m (by simp only [List.mem_reverse] at hm; simp [Uses, hm]))
  obtain ⟨s2, e2, c2, f2, p2, q2, w2, n2⟩ := condDrop_ok (usedByOthers s1 id p.dst) p.dst c1
  obtain ⟨s3, e3, c3, f3, p3, q3, w3, n3⟩ := condDrop_ok (usedByOthers s2 id p.org) p.org c2
  refine ⟨{ s3 with freedPaths := id :: s3.freedPaths }, ?_, ⟨c3.1, c3.2, c3.3, c3.4, c3.5⟩, ?_, ?_, ?_, ?_, ?_⟩
  · have hfr : (s1.paths.any fun e => decide (e.1 ≠ id) && s1.freedPaths.contains e.1) = false := by
      rw [q1, ha]; simp
    simp only [deletePath, hp, ha, List.not_mem_nil, if_false, ho, hd, hm, Bool.false_eq_true, or_self,
      Bool.not_true, e1, Outcome.bind_ok, hfr, e2, e3]
  · exact p3.trans (p2.trans p1)
  · show id :: s3.freedPaths = [id]; rw [q3, q2, q1, ha]
  · exact w3.trans (w2.trans w1)
  · exact n3.trans (n2.trans n1)
  · intro f
    show Reg s3 f ↔ _
    have hb1 : usedByOthers s1 id p.dst = false ↔ ¬ InUseByOther s id p.dst := by
      rw [← inUseByOther_congr p1, ← usedByOthers_iff]; simp
    have hb2 : usedByOthers s2 id p.org = false ↔ ¬ InUseByOther s id p.org := by
      rw [← inUseByOther_congr (p2.trans p1), ← usedByOthers_iff]; simp
    rw [f3, f2, f1, hb1, hb2, List.mem_reverse, Gone]
    constructor
    · rintro ⟨⟨⟨a, b⟩, c⟩, d⟩
      refine ⟨a, ?_⟩
      rintro (x | ⟨rfl | rfl, x⟩)
      · exact b x
      · exact d ⟨rfl, x⟩
      · exact c ⟨rfl, x⟩
    · rintro ⟨a, b⟩
      refine ⟨⟨⟨a, fun x => b (Or.inl x)⟩, ?_⟩, ?_⟩
      · rintro ⟨rfl, x⟩; exact b (Or.inr ⟨Or.inr rfl, x⟩)
      · rintro ⟨rfl, x⟩; exact b (Or.inr ⟨Or.inl rfl, x⟩)

/-- When `deletePath` is refused. -/
theorem deletePath_refused {s : S} {id : Int} {p : Path} {disc : Bool}
    (hp : lookup s.paths id = some p) (ha : s.freedPaths = [])
    (h : ¬ (disc = true ∧ ∀ f, Uses p f → Reg s f)) : deletePath s id disc = .ok (s, false) := by
  simp only [deletePath, hp, ha, List.not_mem_nil, if_false]
  split
  · rfl
  · rename_i h1
    split
    · rfl
    · rename_i h2
      cases disc with
      | false => simp
      | true =>
        exfalso
        apply h
        refine ⟨rfl, ?_⟩
        have hreg : ∀ f, ¬ (lookup s.filters f).isNone = true → Reg s f := by
          intro f hf; rw [lookup_isNone] at hf; simpa [Reg] using hf
        rintro f (rfl | rfl | hf)
        · exact hreg _ (fun x => h1 (Or.inl x))
        · exact hreg _ (fun x => h1 (Or.inr x))
        · apply hreg
          simp only [List.any_eq_true, not_exists, not_and] at h2
          exact h2 f hf

theorem init_wf : WF S.init :=
  ⟨by simp [S.init], by simp [S.init], by simp [S.init], by simp [S.init], by simp [S.init],
   by simp [S.init], by simp [S.init], rfl, by simp [S.init]⟩

theorem wf_pool_of_filter {s : S} (h : WF s) {f : Int} (hf : Reg s f) : s.pool ≠ none := by
  intro hn
  obtain ⟨o, ho⟩ := hf
  rw [(h.stopped hn).1] at ho; simp at ho

theorem createFilter_eq {s : S} (h : WF s) (id : Int) (k : Bool) :
    createFilter s id k =
      if (lookup s.filters id).isSome = true ∨ id < 0 ∨ k = false then (s, false)
      else ({ s with next := s.next + 1, filters := s.filters ++ [(id, s.next)]
                     pool := some (s.filters ++ [(id, s.next)])
                     workers := if s.pool = none then true else s.workers }, true) := by
  have hw : s.pool = none ∨ s.pool = some s.filters := by
    cases hq : s.pool with
    | none => exact Or.inl rfl
    | some rs => right; rw [h.tasks rs hq]
  unfold createFilter
  by_cases h1 : id < 0 ∨ (lookup s.filters id).isSome = true
  · rw [if_pos h1, if_pos (by rcases h1 with h1 | h1 <;> simp [h1])]
  · rw [if_neg h1]
    simp only [not_or, Bool.not_eq_true] at h1
    cases k with
    | false => simp
    | true =>
      have h2 : ¬ ((lookup s.filters id).isSome = true ∨ id < 0 ∨ true = false) := by
        simp only [not_or]; exact ⟨by simp [h1.2], h1.1, by simp⟩
      rw [if_neg h2]
      rcases hw with hw | hw
      · have := (h.stopped hw).1
        simp [hw, this, lookup]
      · simp [hw, h1.2]

theorem createFilter_wf {s : S} (h : WF s) (id : Int) (k : Bool) : WF (createFilter s id k).1 := by
  rw [createFilter_eq h]
  split
  · exact h
  · rename_i hc
    simp only [not_or] at hc
    have hnot : ∀ v, (id, v) ∉ s.filters := by
      intro v hv; exact hc.1 (lookup_isSome.2 ⟨v, hv⟩)
    refine Core.toWF ⟨?_, rfl, ?_, ?_, ?_⟩ h.pathIds h.alive h.shape
    · show ((s.filters ++ [(id, s.next)]).map (·.1)).Nodup
      rw [List.map_append, List.nodup_append]
      refine ⟨h.filterIds, by simp, ?_⟩
      intro a ha b hb
      simp only [List.map_cons, List.map_nil, List.mem_singleton] at hb
      subst hb
      rintro rfl
      obtain ⟨e, he, rfl⟩ := List.mem_map.1 ha
      exact hnot e.2 he
    · show ((s.filters ++ [(id, s.next)]).map (·.2) ++ s.deleted).Nodup
      have hnew : s.next ∉ s.filters.map (·.2) ++ s.deleted := by
        intro hm
        have := (h.allObjects s.next).2 (List.mem_append.1 hm)
        omega
      refine (List.Perm.nodup_iff ?_).2 (List.nodup_cons.2 ⟨hnew, h.objects⟩)
      simp only [List.map_append, List.map_cons, List.map_nil, List.append_assoc, List.cons_append,
        List.nil_append]
      exact List.perm_middle
    · intro o
      show o < s.next + 1 ↔ (o ∈ (s.filters ++ [(id, s.next)]).map (·.2) ∨ o ∈ s.deleted)
      have := h.allObjects o
      simp only [List.map_append, List.map_cons, List.map_nil, List.mem_append, List.mem_singleton]
      constructor
      · intro ho
        by_cases he : o = s.next
        · exact Or.inl (Or.inr he)
        · rcases this.1 (by omega) with x | x
          · exact Or.inl (Or.inl x)
          · exact Or.inr x
      · rintro ((x | x) | x)
        · have := this.2 (Or.inl x); omega
        · omega
        · have := this.2 (Or.inr x); omega
    · intro e he
      rcases List.mem_append.1 he with he | he
      · exact h.nonneg e he
      · simp only [List.mem_singleton] at he; subst he; omega

theorem not_isNone_iff {s : S} {f : Int} : ¬ (lookup s.filters f).isNone = true ↔ Reg s f := by
  rw [lookup_isNone]; simp [Reg]

open Classical in
/-- When `createPath` succeeds. -/
theorem createPath_eq {s : S} (id org dst w r : Int) (mids : List Int) (gw gr : Int) :
    createPath s id org dst w r mids gw gr =
      if (∀ p, (id, p) ∉ s.paths) ∧ Reg s org ∧ Reg s dst ∧
         (∀ m ∈ mids, Reg s m ∧ m ≠ org ∧ m ≠ dst) ∧ mids.Nodup
      then ({ s with paths := s.paths ++ [(id, { org := org, dst := dst, orgW := if w < 0 then gw else w
                                                 dstR := if r < 0 then gr else r, mids := mids })] }, true)
      else (s, false) := by
  unfold createPath
  split
  · rename_i h; rw [lookup_isSome] at h
    rw [if_neg]; rintro ⟨a, _⟩; obtain ⟨v, hv⟩ := h; exact a v hv
  rename_i h1
  split
  · rename_i h; rw [if_neg]; rintro ⟨_, a, _⟩; exact not_isNone_iff.2 a h
  rename_i h2
  split
  · rename_i h; rw [if_neg]; rintro ⟨_, _, a, _⟩; exact not_isNone_iff.2 a h
  rename_i h3
  split
  · rename_i h; rw [if_neg]
    rintro ⟨_, _, _, a, _⟩
    simp only [List.any_eq_true, Bool.or_eq_true, beq_iff_eq] at h
    obtain ⟨m, hm, h⟩ := h
    obtain ⟨x, y, z⟩ := a m hm
    rcases h with (h | h) | h
    · exact not_isNone_iff.2 x h
    · exact y h
    · exact z h
  rename_i h4
  split
  · rename_i h; rw [if_neg]; rintro ⟨_, _, _, _, a⟩; exact h a
  rename_i h5
  have hc : (∀ p, (id, p) ∉ s.paths) ∧ Reg s org ∧ Reg s dst ∧
         (∀ m ∈ mids, Reg s m ∧ m ≠ org ∧ m ≠ dst) ∧ mids.Nodup := by
    refine ⟨?_, not_isNone_iff.1 h2, not_isNone_iff.1 h3, ?_, by simpa using h5⟩
    · intro p hp; exact h1 (lookup_isSome.2 ⟨p, hp⟩)
    intro m hm
    simp only [List.any_eq_true, Bool.or_eq_true, beq_iff_eq, not_exists, not_and, not_or] at h4
    obtain ⟨⟨a, b⟩, c⟩ := h4 m hm
    exact ⟨not_isNone_iff.1 a, b, c⟩
  rw [if_pos hc]

theorem createPath_wf {s : S} (h : WF s) (id org dst w r : Int) (mids : List Int) (gw gr : Int) :
    WF (createPath s id org dst w r mids gw gr).1 := by
  rw [createPath_eq]
  split
  · rename_i hc
    obtain ⟨a, b, c, d, e⟩ := hc
    have hp : s.pool ≠ none := wf_pool_of_filter h b
    have hcore := h.core hp
    refine Core.toWF ⟨hcore.1, hcore.2, hcore.3, hcore.4, hcore.5⟩ ?_ h.alive ?_
    · show ((s.paths ++ [(id, (_ : Path))]).map (fun e : Int × Path => e.1)).Nodup
      rw [List.map_append, List.nodup_append]
      refine ⟨h.pathIds, by simp, ?_⟩
      intro x hx y hy
      simp only [List.map_cons, List.map_nil, List.mem_singleton] at hy
      subst hy
      rintro rfl
      obtain ⟨e, he, rfl⟩ := List.mem_map.1 hx
      exact a e.2 he
    · intro x hx
      rcases List.mem_append.1 hx with hx | hx
      · exact h.shape x hx
      · simp only [List.mem_singleton] at hx; subst hx
        exact ⟨e, fun hm => (d _ hm).2.1 rfl, fun hm => (d _ hm).2.2 rfl⟩
  · exact h

/-- `connectPath` in terms of the registries. -/
theorem connectPath_eq {s : S} (h : WF s) (id : Int) (res : Bool) (hc : Careful s (.connectPath id res)) :
    ∃ b, connectPath s id res = .ok (s, b) := by
  unfold connectPath
  cases hl : lookup s.paths id with
  | none => exact ⟨false, rfl⟩
  | some p =>
    obtain ⟨a, b⟩ := hc p (lookup_mem hl)
    simp only [h.alive, List.not_mem_nil, if_false, if_neg (not_isNone_iff.2 a), if_neg (not_isNone_iff.2 b)]
    split
    · exact ⟨_, rfl⟩
    · exact ⟨_, rfl⟩

theorem removePath_ok {s : S} {id : Int} {p : Path} (h : WF s) (hp : (id, p) ∈ s.paths)
    (hr : ∀ f, Uses p f → Reg s f) :
    ∃ s', removePath s id true = .ok (s', true) ∧ WF s' ∧ s'.paths = erase s.paths id ∧
      s'.next = s.next ∧ ∀ f, Reg s' f ↔ Reg s f ∧ ¬ Gone s id p f := by
  have hl := lookup_of_mem h.pathIds hp
  have hcore := h.core (wf_pool_of_filter h (hr p.org (by simp [Uses])))
  obtain ⟨s1, e1, c1, p1, q1, w1, n1, f1⟩ := deletePath_ok hcore hl h.alive (h.shape _ hp).1 hr
  refine ⟨{ s1 with paths := erase s1.paths id, freedPaths := s1.freedPaths.filter (· ≠ id) }, ?_, ?_, ?_, n1, f1⟩
  · simp only [removePath, hl, e1, Outcome.bind_ok]; simp
  · refine Core.toWF ⟨c1.1, c1.2, c1.3, c1.4, c1.5⟩ ?_ ?_ ?_
    · show ((erase s1.paths id).map (·.1)).Nodup
      rw [p1]; exact erase_nodup h.pathIds
    · show s1.freedPaths.filter (· ≠ id) = []
      rw [q1]; simp
    · intro e he
      have := (mem_erase.1 he).1
      rw [p1] at this
      exact h.shape e this
  · show erase s1.paths id = _; rw [p1]

theorem removePath_refused {s : S} {id : Int} {p : Path} {disc : Bool} (h : WF s)
    (hp : (id, p) ∈ s.paths) (hr : ¬ (disc = true ∧ ∀ f, Uses p f → Reg s f)) :
    removePath s id disc = .ok (s, false) := by
  have hl := lookup_of_mem h.pathIds hp
  simp only [removePath, hl, deletePath_refused hl h.alive hr, Outcome.bind_ok]; simp

theorem removePath_unknown {s : S} {id : Int} {disc : Bool} (hp : ∀ p, (id, p) ∉ s.paths) :
    removePath s id disc = .ok (s, true) := by
  cases hl : lookup s.paths id with
  | none => simp [removePath, hl]
  | some p => exact absurd (lookup_mem hl) (hp p)

theorem removeFilter_ok {s : S} {id : Int} (h : WF s) (hr : Reg s id) (hu : ¬ InUse s id) :
    ∃ s', removeFilter s id = .ok (s', true) ∧ WF s' ∧ s'.paths = s.paths ∧ s'.next = s.next ∧
      ∀ f, Reg s' f ↔ Reg s f ∧ f ≠ id := by
  obtain ⟨o, ho⟩ := hr
  have hcore := h.core (wf_pool_of_filter h ⟨o, ho⟩)
  have hl := lookup_of_mem h.filterIds ho
  obtain ⟨hd, hc⟩ := core_drop hcore ho
  have h1 : (s.paths.any fun e => s.freedPaths.contains e.1) = false := by rw [h.alive]; simp
  have h2 : (s.paths.any fun e => e.2.hasFilter id) = false := by
    rw [List.any_eq_false]
    intro e he hh
    exact hu ⟨e, he, hasFilter_iff.1 hh⟩
  refine ⟨_, ?_, Core.toWF hc h.pathIds h.alive h.shape, rfl, rfl, ?_⟩
  · simp only [removeFilter, hl, h1, h2, Bool.false_eq_true, if_false, removeTask, hcore.tasks,
      Outcome.bind_ok, hd]
  · intro f; exact reg_erase rfl f

theorem removeFilter_refused {s : S} {id : Int} (h : WF s) (hr : ¬ Reg s id ∨ InUse s id) :
    removeFilter s id = .ok (s, false) := by
  cases hl : lookup s.filters id with
  | none => simp [removeFilter, hl]
  | some o =>
    have h1 : (s.paths.any fun e => s.freedPaths.contains e.1) = false := by rw [h.alive]; simp
    have h2 : (s.paths.any fun e => e.2.hasFilter id) = true := by
      rcases hr with hr | ⟨e, he, hu⟩
      · exact absurd ⟨o, lookup_mem hl⟩ hr
      · rw [List.any_eq_true]; exact ⟨e, he, hasFilter_iff.2 hu⟩
    simp only [removeFilter, hl, h1, h2, Bool.false_eq_true, if_false, if_true]

theorem deleteAll_ok (fs : List (Int × Nat)) : ∀ del : List Nat, (fs.map (·.2) ++ del).Nodup →
    ∃ del', deleteAll del fs = .ok del' ∧ del'.Perm (fs.map (·.2) ++ del) := by
  induction fs with
  | nil => intro del _; exact ⟨del, rfl, by simp⟩
  | cons e fs ih =>
    intro del hn
    have hn' : (fs.map (·.2) ++ e.2 :: del).Nodup := by
      refine (List.Perm.nodup_iff ?_).1 hn
      exact List.perm_middle.symm
    have hd : e.2 ∉ del := by
      rw [List.nodup_append] at hn'
      exact (List.nodup_cons.1 hn'.2.1).1
    obtain ⟨del', e', hp⟩ := ih _ hn'
    refine ⟨del', ?_, hp.trans ?_⟩
    · simp only [deleteAll, hd, if_false, e']
    · exact List.perm_middle

/-- The end of `stop`: all filters are deleted. -/
theorem finish_ok {s : S} (h : Core s) :
    ∃ del', deleteAll s.deleted s.filters = .ok del' ∧ del'.Nodup ∧ ∀ o, o < s.next ↔ o ∈ del' := by
  obtain ⟨del', e, hp⟩ := deleteAll_ok s.filters s.deleted h.objects
  refine ⟨del', e, hp.nodup_iff.2 h.objects, ?_⟩
  intro o
  rw [h.allObjects o, hp.mem_iff, List.mem_append]

theorem stopped_wf {s : S} {del : List Nat} (hn : del.Nodup) (hd : ∀ o, o < s.next ↔ o ∈ del) :
    WF { s with paths := [], freedPaths := [], filters := [], deleted := del, pool := none } :=
  ⟨by simp, by simp, by simp, by simp, by simpa using hn, by simpa using hd, by simp, rfl, by simp⟩

theorem stop_none {s : S} (disc : Int → Bool) (order : List (Int × Path)) (hp : s.pool = none) :
    stop s order disc = .ok (s, false) := by simp [stop, hp]

/-- `stop` without paths. -/
theorem stop_empty {s : S} (h : WF s) (disc : Int → Bool) (hp : s.pool ≠ none) :
    ∃ del, stop s [] disc = .ok ({ s with workers := false, paths := [], freedPaths := [], filters := []
                                          deleted := del, pool := none }, true) ∧
      del.Nodup ∧ ∀ o, o < s.next ↔ o ∈ del := by
  obtain ⟨del, e, hn, hd⟩ := finish_ok (h.core hp)
  refine ⟨del, ?_, hn, hd⟩
  have ht := (h.core hp).tasks
  simp only [stop, ht, stopPaths, Outcome.bind_ok, e]; simp

/-- `stop` with one path whose filters exist. -/
theorem stop_single {s : S} (h : WF s) (id : Int) (p : Path) (disc : Int → Bool) (hp : s.paths = [(id, p)])
    (hr : ∀ f, Uses p f → Reg s f) (hd : disc id = true) :
    ∃ s', stop s s.paths disc = .ok (s', true) ∧ WF s' ∧ s'.filters = [] ∧ s'.paths = [] ∧ s'.pool = none ∧
      s'.next = s.next := by
  have hcore := h.core (wf_pool_of_filter h (hr p.org (by simp [Uses])))
  have hcore' : Core { s with workers := false } := ⟨hcore.1, hcore.2, hcore.3, hcore.4, hcore.5⟩
  have hmem : (id, p) ∈ s.paths := by rw [hp]; simp
  obtain ⟨s1, e1, c1, p1, q1, w1, n1, f1⟩ := deletePath_ok (s := { s with workers := false }) hcore'
    (lookup_of_mem h.pathIds hmem) h.alive (h.shape _ hmem).1 hr
  obtain ⟨del, e, hn, hd'⟩ := finish_ok c1
  refine ⟨_, ?_, stopped_wf (s := s1) hn hd', rfl, rfl, rfl, n1⟩
  have ht := hcore.tasks
  simp only [stop, ht, hp, stopPaths, hd]
  rw [hp] at e1
  simp only [ht] at e1
  simp only [e1, Outcome.bind_ok]; simp [e]

/-- `stop` with one path that cannot be removed. -/
theorem stop_refused {s : S} (h : WF s) (id : Int) (p : Path) (disc : Int → Bool) (hp : s.paths = [(id, p)])
    (hr : ¬ (disc id = true ∧ ∀ f, Uses p f → Reg s f)) :
    stop s s.paths disc = .ok ({ s with workers := if s.pool = none then s.workers else false }, false) := by
  cases hq : s.pool with
  | none =>
    have := (h.stopped hq).2
    rw [hp] at this; cases this
  | some rs =>
    have hmem : (id, p) ∈ s.paths := by rw [hp]; simp
    have e1 := deletePath_refused (s := { s with workers := false }) (disc := disc id)
      (lookup_of_mem h.pathIds hmem) h.alive hr
    simp only [stop, hq, hp, stopPaths]
    rw [hp, hq] at e1
    simp only [e1, Outcome.bind_ok]; simp

end Lms.Pipeline
