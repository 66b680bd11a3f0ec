import Verif.Record.Success

/-!
# C85: no segment comes before the initialisation file
-/

namespace Lms.Record

open Nalu (Picture payload kindOf Whole)

/-- All kinds of parameter sets that a decoder configuration needs are among the units. -/
def Equips (c : Nalu.Codec) (ns : List Nalu.Nal) : Prop :=
  (∃ n ∈ ns, kindOf c n = .sps) ∧ (∃ n ∈ ns, kindOf c n = .pps) ∧ (c = .hevc → ∃ n ∈ ns, kindOf c n = .vps)

/-- The stream up to the first key picture brings the parameter sets, and that picture has a size. -/
def Opens (c : Nalu.Codec) (l : List Picture) : Prop :=
  ∀ a p b, l = a ++ p :: b → (∀ q ∈ a, q.key = false) → p.key = true →
    Equips c ((a ++ [p]).flatMap Picture.nals) ∧ p.width ≠ 0 ∧ p.height ≠ 0

/-! ## Pending parameter sets -/

/-- What the handling of parameter sets looks at. -/
def sets (s : Nalu.State) : Nalu.Codec × Bytes × Bytes × Bytes × Bytes := (s.codec, s.vps, s.sps, s.pps, s.extra)

theorem note_sets (s : Nalu.State) (b : Bool) (k : Nalu.Kind) (d : Bytes) : sets (Nalu.note { s with prev := b } k d) = sets (Nalu.note s k d) := by
  cases k <;> rfl

theorem parse_sets {s s' : Nalu.State} {n : Nalu.Nal} {o : Option Nalu.Fr} (hw : Whole n) (hk : kindOf s.codec n ≠ .other)
    (he : Nalu.parseNal s n = .ok (s', o)) : sets s' = sets (Nalu.note s (kindOf s.codec n) (payload n)) := by
  rw [Nalu.parse_whole hw hk] at he
  simp only at he
  have hn := note_sets s s.cur (kindOf s.codec n) (payload n)
  generalize Nalu.note { s with prev := s.cur } (kindOf s.codec n) (payload n) = z at *
  generalize Nalu.ends z (kindOf s.codec n) n = e at he
  have hz : sets (if e = true then { z with tmp := { z.out with data := [] }, out := z.tmp } else z) = sets z := by
    cases e <;> rfl
  generalize (if e = true then { z with tmp := { z.out with data := [] }, out := z.tmp } else z) = y at he hz
  rw [← hn, ← hz]
  by_cases h1 : kindOf s.codec n = .key ∨ kindOf s.codec n = .slice
  · rw [if_pos h1] at he
    by_cases h2 : y.max < (y.tmp.data.length + (payload n).length + 4) % 2 ^ 32
    · rw [if_pos h2] at he
      simp only [Outcome.ok.injEq, Prod.mk.injEq] at he
      rw [← he.1]
    · rw [if_neg h2] at he
      by_cases h3 : y.max < y.tmp.data.length + 4 + (payload n).length
      · rw [if_pos h3] at he; cases he
      · rw [if_neg h3] at he
        simp only [Outcome.ok.injEq, Prod.mk.injEq] at he
        rw [← he.1]; rfl
  · rw [if_neg h1] at he
    simp only [Outcome.ok.injEq, Prod.mk.injEq] at he
    rw [← he.1]

/-- Every kind of set seen so far is pending. -/
def Pending (c : Nalu.Codec) (ns : List Nalu.Nal) (s : Nalu.State) : Prop :=
  (∀ n ∈ ns, kindOf c n = .vps → s.vps ≠ []) ∧ (∀ n ∈ ns, kindOf c n = .sps → s.sps ≠ []) ∧ (∀ n ∈ ns, kindOf c n = .pps → s.pps ≠ [])

/-- A configuration was written, is ready, or what was seen is pending and not enough. -/
def Ready (c : Nalu.Codec) (ns : List Nalu.Nal) (w : Prop) (s : Nalu.State) : Prop :=
  s.codec = c ∧ (w ∨ s.extra ≠ [] ∨ (Pending c ns s ∧ ¬Equips c ns))

theorem avcExtra_ne {a b x : Bytes} (h : Nalu.avcExtra a b = .ok x) : x ≠ [] := by
  unfold Nalu.avcExtra at h
  split at h
  · cases h
  · cases h; simp

/-- What making a configuration does. -/
theorem update_sets {s s' : Nalu.State} (h : Nalu.updateExtra s = .ok s') : s'.codec = s.codec ∧ (s.extra ≠ [] → s'.extra ≠ []) ∧
    (s'.extra ≠ [] ∨ (s' = s ∧ (s.sps = [] ∨ s.pps = [] ∨ (s.codec = .hevc ∧ s.vps = [])))) := by
  unfold Nalu.updateExtra at h
  cases hc : s.codec with
  | avc =>
    simp only [hc] at h
    by_cases h1 : s.sps = [] ∨ s.pps = []
    · rw [if_pos h1] at h; cases h; exact ⟨hc, id, .inr ⟨rfl, h1.imp id .inl⟩⟩
    · rw [if_neg h1] at h
      cases ha : Nalu.avcExtra s.sps s.pps with
      | ub => rw [ha] at h; cases h
      | hang => rw [ha] at h; cases h
      | ok b =>
        rw [ha] at h
        simp only [Outcome.bind_ok] at h
        cases h
        exact ⟨rfl, fun _ => avcExtra_ne ha, .inl (avcExtra_ne ha)⟩
  | hevc =>
    simp only [hc] at h
    by_cases h1 : s.vps = [] ∨ s.sps = [] ∨ s.pps = []
    · rw [if_pos h1] at h; cases h
      refine ⟨hc, id, .inr ⟨rfl, ?_⟩⟩
      rcases h1 with h1 | h1 | h1
      · exact .inr (.inr ⟨rfl, h1⟩)
      · exact .inl h1
      · exact .inr (.inl h1)
    · rw [if_neg h1] at h
      cases h
      exact ⟨rfl, fun _ => by simp [Nalu.hevcExtra], .inl (by simp [Nalu.hevcExtra])⟩

theorem note_extra (s : Nalu.State) (k : Nalu.Kind) (d : Bytes) : (Nalu.note s k d).extra = s.extra := by cases k <;> rfl

theorem payload_ne {n : Nalu.Nal} (h : Whole n) : payload n ≠ [] := h.2.2.2

theorem note_pending {c : Nalu.Codec} {ns : List Nalu.Nal} {s : Nalu.State} (h : Pending c ns s) (n : Nalu.Nal) (hw : Whole n) :
    Pending c (ns ++ [n]) (Nalu.note s (kindOf c n) (payload n)) := by
  obtain ⟨h1, h2, h3⟩ := h
  have hp := payload_ne hw
  refine ⟨?_, ?_, ?_⟩ <;> intro m hm hk <;> rcases List.mem_append.1 hm with hm | hm
  · have := h1 m hm hk
    cases kindOf c n <;> first | exact this | exact hp
  · cases List.mem_singleton.1 hm; rw [hk]; exact hp
  · have := h2 m hm hk
    cases kindOf c n <;> first | exact this | exact hp
  · cases List.mem_singleton.1 hm; rw [hk]; exact hp
  · have := h3 m hm hk
    cases kindOf c n <;> first | exact this | exact hp
  · cases List.mem_singleton.1 hm; rw [hk]; exact hp

theorem Pending.of {c : Nalu.Codec} {ns : List Nalu.Nal} {s t : Nalu.State} (h : Pending c ns s) (he : sets t = sets s) : Pending c ns t := by
  simp only [sets, Prod.mk.injEq] at he
  obtain ⟨_, e2, e3, e4, _⟩ := he
  obtain ⟨h1, h2, h3⟩ := h
  exact ⟨e2 ▸ h1, e3 ▸ h2, e4 ▸ h3⟩

theorem manage_ready {c : Nalu.Codec} {ns : List Nalu.Nal} {w : Prop} {s s' : Nalu.State} {n : Nalu.Nal} {o : Option Nalu.Au} (h : Ready c ns w s)
    (hw : Whole n) (hk : kindOf c n ≠ .other) (he : Nalu.manageFrame s n = .ok (s', o)) : Ready c (ns ++ [n]) w s' ∧ (s.extra ≠ [] → s'.extra ≠ []) := by
  obtain ⟨hc, h⟩ := h
  unfold Nalu.manageFrame at he
  cases hp : Nalu.parseNal s n with
  | ub => rw [hp] at he; cases he
  | hang => rw [hp] at he; cases he
  | ok r =>
    rw [hp] at he
    simp only [Outcome.bind_ok] at he
    cases hu : Nalu.updateExtra r.1 with
    | ub => rw [hu] at he; cases he
    | hang => rw [hu] at he; cases he
    | ok z =>
      rw [hu] at he
      simp only [Outcome.bind_ok, Outcome.ok.injEq, Prod.mk.injEq] at he
      obtain ⟨rfl, _⟩ := he
      have hs := parse_sets (o := r.2) hw (by rw [hc]; exact hk) hp
      have hx : r.1.extra = s.extra := by
        have := congrArg (fun x => x.2.2.2.2) hs
        exact this.trans (note_extra s _ _)
      have hcc : r.1.codec = c := by
        have := congrArg (fun x => x.1) hs
        exact this.trans ((Nalu.note_fields s _ _).1.trans hc)
      obtain ⟨u1, u2, u3⟩ := update_sets hu
      refine ⟨⟨u1.trans hcc, ?_⟩, fun h => u2 (by rw [hx]; exact h)⟩
      rcases h with h | h | ⟨h, _⟩
      · exact .inl h
      · exact .inr (.inl (u2 (by rw [hx]; exact h)))
      · rcases u3 with u3 | ⟨u3, u4⟩
        · exact .inr (.inl u3)
        · have hp2 : Pending c (ns ++ [n]) r.1 := by
            rw [hc] at hs
            exact (note_pending h n hw).of hs
          refine .inr (.inr ⟨by rw [u3]; exact hp2, ?_⟩)
          rintro ⟨⟨a, a1, a2⟩, ⟨b, b1, b2⟩, hv⟩
          rcases u4 with u4 | u4 | ⟨u4, u5⟩
          · exact hp2.2.1 a a1 a2 u4
          · exact hp2.2.2 b b1 b2 u4
          · obtain ⟨v, v1, v2⟩ := hv (hcc.symm.trans u4)
            exact hp2.1 v v1 v2 u5

/-! ## Writing it -/

/-- If the file is not written, there was no configuration or no size; nothing changes. -/
theorem makeInit_none {cap : Nat} {a a' : Nalu.State} {s s' : Dash.State} {secs w h : Nat} {o : Option Bytes}
    (he : makeInit cap a (setup secs s w h) = .ok (a', s', o)) : o ≠ none ∨ (a' = a ∧ (a.extra = [] ∨ w = 0 ∨ h = 0)) := by
  unfold makeInit at he
  by_cases h1 : a.extra = []
  · rw [if_pos h1] at he
    cases he
    exact .inr ⟨rfl, .inl h1⟩
  rw [if_neg h1] at he
  by_cases h2 : (setup secs s w h).ctx.width = 0 ∨ (setup secs s w h).ctx.height = 0
  · rw [if_pos h2] at he
    cases he
    exact .inr ⟨rfl, .inr h2⟩
  rw [if_neg h2] at he
  cases hg : Isoff.initGenerator cap (setup secs s w h).ctx a.extra with
  | ub => rw [hg] at he; cases he
  | hang => rw [hg] at he; cases he
  | ok g =>
    rw [hg] at he
    simp only [Outcome.bind_ok] at he
    cases g with
    | err e =>
      exfalso
      unfold Isoff.initGenerator at hg
      split at hg
      · rename_i h3
        cases hl : a.extra with
        | nil => exact h1 hl
        | cons _ _ => rw [hl] at h3; simp at h3
      · unfold Isoff.store at hg
        simp only at hg
        split at hg <;> cases hg
    | out cc b =>
      simp only [Outcome.ok.injEq, Prod.mk.injEq] at he
      exact .inl (by rw [← he.2.2]; simp)

/-- One unit, as far as the configuration is concerned. -/
theorem step_config {cap : Nat} {off : Int} {r r' : State} {n : Nalu.Nal} {o : Out} (he : step cap off r (n, true) = .ok (r', o)) :
    ∃ a m, Nalu.manageFrame r.asm n = .ok (a, m) ∧
      (o.init ≠ none ∨ (r'.asm = a ∧ ∀ au, m = some au → a.extra = [] ∨ au.width = 0 ∨ au.height = 0)) ∧
      (r'.asm.codec = a.codec ∨ o.init ≠ none) := by
  unfold step at he
  simp only at he
  cases hm : Nalu.manageFrame r.asm n with
  | ub => rw [hm] at he; cases he
  | hang => rw [hm] at he; cases he
  | ok m =>
    rw [hm] at he
    simp only [Outcome.bind_ok] at he
    refine ⟨m.1, m.2, rfl, ?_⟩
    cases hm2 : m.2 with
    | none =>
      rw [hm2] at he
      simp only [Outcome.ok.injEq, Prod.mk.injEq] at he
      rw [← he.1, ← he.2]
      exact ⟨.inr ⟨rfl, fun au h => by cases h⟩, .inl rfl⟩
    | some au =>
      rw [hm2] at he
      simp only at he
      cases hq : makeInit cap m.1 (setup r.secs r.seg au.width au.height) with
      | ub => rw [hq] at he; cases he
      | hang => rw [hq] at he; cases he
      | ok q =>
        rw [hq] at he
        simp only [Outcome.bind_ok] at he
        rw [if_neg (by simp)] at he
        cases hpt : ticks off au.pts with
        | ub => rw [hpt] at he; cases he
        | hang => rw [hpt] at he; cases he
        | ok p =>
          cases hd : ticks off au.dts with
          | ub => rw [hpt, hd] at he; cases he
          | hang => rw [hpt, hd] at he; cases he
          | ok d =>
            rw [hpt, hd] at he
            simp only [Outcome.bind_ok] at he
            cases hv : Dash.videoFrame cap q.2.1 ⟨au.data, p, d, au.intra⟩ with
            | ub => rw [hv] at he; cases he
            | hang => rw [hv] at he; cases he
            | ok v =>
              rw [hv] at he
              simp only [Outcome.bind_ok, Outcome.ok.injEq, Prod.mk.injEq] at he
              rw [← he.1, ← he.2]
              rcases makeInit_none (a' := q.1) (s' := q.2.1) (o := q.2.2) hq with h | ⟨h1, h2⟩
              · exact ⟨.inl h, .inr h⟩
              · exact ⟨.inr ⟨h1, fun x hx => by cases hx; exact h2⟩, .inl (by simp only [h1])⟩

/-- Once written, nothing needs to be known. -/
theorem run_config {cap : Nat} {off : Int} {c : Nalu.Codec} (ns : List Nalu.Nal) {past : List Nalu.Nal} {r r' : State} {outs : List Out}
    (hw : ∀ n ∈ ns, Whole n ∧ kindOf c n ≠ .other) (hr : Ready c past False r.asm)
    (he : runOps (step cap off) r (ns.map (·, true)) = .ok (r', outs)) :
    outs.filterMap Out.init ≠ [] ∨ Ready c (past ++ ns) False r'.asm := by
  induction ns generalizing past r outs with
  | nil =>
    simp only [List.map_nil, runOps, Outcome.ok.injEq, Prod.mk.injEq] at he
    rw [← he.1, List.append_nil]; exact .inr hr
  | cons n ns ih =>
    rw [List.map_cons] at he
    obtain ⟨r1, o, outs', h1, h2, rfl⟩ := runOps_cons_ok he
    obtain ⟨a, m, m1, m2, _⟩ := step_config h1
    obtain ⟨w1, w2⟩ := hw n (by simp)
    obtain ⟨g1, _⟩ := manage_ready hr w1 w2 m1
    rcases m2 with m2 | ⟨m2, _⟩
    · left
      cases ho : o.init with
      | none => exact absurd ho m2
      | some b => simp [ho]
    · rw [← m2] at g1
      rcases ih (fun x hx => hw x (by simp [hx])) g1 h2 with h | h
      · left
        intro hn
        rw [List.filterMap_cons] at hn
        cases ho : o.init with
        | none => rw [ho] at hn; exact h hn
        | some b => rw [ho] at hn; cases hn
      · right
        rw [List.append_assoc] at h
        exact h

/-- A ready configuration is written with the next frame that has a size. -/
theorem run_writes {cap : Nat} {off : Int} {c : Nalu.Codec} (ns : List Nalu.Nal) {r r' : State} {outs : List Out} {a a' : Nalu.State} {x : Bytes}
    {os : List (Option Nalu.Au)} {au : Nalu.Au} {rest : List Nalu.Au} (hw : ∀ n ∈ ns, Whole n ∧ kindOf c n ≠ .other) (hc : r.asm.codec = c)
    (ha : r.asm = { a with extra := x }) (hx : x ≠ []) (hm : runOps Nalu.manageFrame a ns = .ok (a', os)) (hos : os.filterMap id = au :: rest)
    (hau : au.width ≠ 0 ∧ au.height ≠ 0) (he : runOps (step cap off) r (ns.map (·, true)) = .ok (r', outs)) : outs.filterMap Out.init ≠ [] := by
  induction ns generalizing r a x os outs with
  | nil =>
    simp only [runOps, Outcome.ok.injEq, Prod.mk.injEq] at hm
    rw [← hm.2] at hos
    cases hos
  | cons n ns ih =>
    rw [List.map_cons] at he
    obtain ⟨r1, o, outs', h1, h2, rfl⟩ := runOps_cons_ok he
    obtain ⟨a1, m, os', m1, m2, rfl⟩ := runOps_cons_ok hm
    obtain ⟨b, m', b1, b2, _⟩ := step_config h1
    obtain ⟨y, hy⟩ := manage_extra a a1 n m x m1
    rw [← ha, b1] at hy
    simp only [Outcome.ok.injEq, Prod.mk.injEq] at hy
    obtain ⟨hb, rfl⟩ := hy
    obtain ⟨w1, w2⟩ := hw n (by simp)
    have hR : Ready c [] False r.asm := ⟨hc, .inr (.inl (by rw [ha]; exact hx))⟩
    obtain ⟨g1, g2⟩ := manage_ready hR w1 w2 b1
    have hbx : b.extra ≠ [] := g2 (by rw [ha]; exact hx)
    rcases b2 with b2 | ⟨b2, b3⟩
    · cases ho : o.init with
      | none => exact absurd ho b2
      | some b => simp [ho]
    · cases m' with
      | some au' =>
        simp only [List.filterMap_cons, id, List.cons.injEq] at hos
        obtain ⟨rfl, _⟩ := hos
        rcases b3 au' rfl with h | h | h
        · exact absurd h hbx
        · exact absurd h hau.1
        · exact absurd h hau.2
      | none =>
        simp only [List.filterMap_cons, id] at hos
        have := ih (fun x hx => hw x (by simp [hx])) (by rw [b2]; exact g1.1) (b2.trans hb) (by rw [hb] at hbx; exact hbx) m2 hos h2
        intro hn
        rw [List.filterMap_cons] at hn
        cases ho : o.init with
        | none => rw [ho] at hn; exact this hn
        | some b => rw [ho] at hn; cases hn

/-! ## Whole streams -/

theorem runOps_take {σ ι ω : Type} {step : σ → ι → Outcome (σ × ω)} (l : List ι) {s s' : σ} {os : List ω} (h : runOps step s l = .ok (s', os)) (n : Nat) :
    ∃ s1, runOps step s (l.take n) = .ok (s1, os.take n) := by
  induction l generalizing s os n with
  | nil =>
    simp only [runOps, Outcome.ok.injEq, Prod.mk.injEq] at h
    obtain ⟨rfl, rfl⟩ := h
    exact ⟨s, by simp [runOps]⟩
  | cons i l ih =>
    obtain ⟨s1, o, os', h1, h2, rfl⟩ := runOps_cons_ok h
    cases n with
    | zero => exact ⟨s, rfl⟩
    | succ n =>
      obtain ⟨s2, h3⟩ := ih h2 n
      refine ⟨s2, ?_⟩
      simp only [List.take_succ_cons, runOps, h1, Outcome.bind_ok, h3]

theorem runOps_split {σ ι ω : Type} {step : σ → ι → Outcome (σ × ω)} (a b : List ι) {s s' : σ} {os : List ω}
    (h : runOps step s (a ++ b) = .ok (s', os)) :
    ∃ s1 o1 o2, runOps step s a = .ok (s1, o1) ∧ runOps step s1 b = .ok (s', o2) ∧ os = o1 ++ o2 ∧ o1.length = a.length := by
  induction a generalizing s os with
  | nil => exact ⟨s, [], os, rfl, h, rfl, rfl⟩
  | cons i a ih =>
    obtain ⟨s1, o, os', h1, h2, rfl⟩ := runOps_cons_ok h
    obtain ⟨s2, o1, o2, h3, h4, h5, h6⟩ := ih h2
    refine ⟨s2, o :: o1, o2, ?_, h4, by rw [h5]; rfl, by simp [h6]⟩
    simp only [runOps, h1, Outcome.bind_ok, h3]

theorem chain_prefix {c : Nalu.Codec} (a b : List Picture) (h : Nalu.Chain c (a ++ b)) : Nalu.Chain c a := by
  induction a with
  | nil => trivial
  | cons p a ih =>
    cases a with
    | nil => trivial
    | cons q a => exact ⟨h.1, ih h.2⟩

/-- The assembler goes on, whatever is announced. -/
theorem run_asm {cap : Nat} (hcap : cap < 2 ^ 32) {off : Int} (ns : List Nalu.Nal) {r r' : State} {t : Dash.Spec}
    {outs : List Out} {a a' : Nalu.State} {os : List (Option Nalu.Au)} {x : Bytes} (hr : Dash.Rel r.seg t)
    (ht : t.target = r.secs * BASE % 2 ^ 32) (ha : r.asm = { a with extra := x })
    (hm : runOps Nalu.manageFrame a ns = .ok (a', os))
    (he : runOps (step cap off) r (ns.map (·, true)) = .ok (r', outs)) : ∃ y, r'.asm = { a' with extra := y } := by
  induction ns generalizing r t outs a os x with
  | nil =>
    simp only [List.map_nil, runOps, Outcome.ok.injEq, Prod.mk.injEq] at he hm
    obtain ⟨rfl, rfl⟩ := he
    obtain ⟨rfl, rfl⟩ := hm
    exact ⟨x, ha⟩
  | cons n ns ih =>
    rw [List.map_cons] at he
    obtain ⟨r1, o, outs', h1, h2, rfl⟩ := runOps_cons_ok he
    obtain ⟨a1, m, os', m1, m2, rfl⟩ := runOps_cons_ok hm
    obtain ⟨e1, ⟨y, e2⟩, e3⟩ := step_refines hcap hr ht ha m1 h1
    cases m with
    | none => exact ih e3.1 (by rw [e1]; exact ht) e2 m2 h2
    | some au => exact ih e3.1 (by rw [step_target, e1]; exact ht) e2 m2 h2

theorem first_key (l : List Picture) (h : ∃ p ∈ l, p.key = true) : ∃ a p b, l = a ++ p :: b ∧ (∀ q ∈ a, q.key = false) ∧ p.key = true := by
  induction l with
  | nil => obtain ⟨p, hp, _⟩ := h; cases hp
  | cons x l ih =>
    cases hx : x.key with
    | true => exact ⟨[], x, l, rfl, (by intro q hq; cases hq), hx⟩
    | false =>
      obtain ⟨p, hp, hk⟩ := h
      rcases List.mem_cons.1 hp with rfl | hp
      · rw [hx] at hk; cases hk
      · obtain ⟨a, q, b, h1, h2, h3⟩ := ih ⟨p, hp, hk⟩
        refine ⟨x :: a, q, b, by rw [h1]; rfl, ?_, h3⟩
        intro y hy
        rcases List.mem_cons.1 hy with rfl | hy
        · exact hx
        · exact h2 y hy

theorem none_left (fs : List Dash.Frm) (h : ∀ f ∈ fs, f.intra = false) : fs.dropWhile (fun f => !f.intra) = [] := by
  induction fs with
  | nil => rfl
  | cons f fs ih =>
    rw [List.dropWhile_cons, h f (by simp)]
    exact ih fun x hx => h x (by simp [hx])

theorem units_whole {c : Nalu.Codec} {l : List Picture} (hl : ∀ p ∈ l, p.Ok c) : ∀ n ∈ l.flatMap Picture.nals, Whole n ∧ kindOf c n ≠ .other := by
  intro n hn
  obtain ⟨p, hp, hn⟩ := List.mem_flatMap.1 hn
  have ok := hl p hp
  rcases List.mem_append.1 hn with hn | hn
  · obtain ⟨q1, q2, -⟩ := ok.pre n hn
    refine ⟨q1, fun e => ?_⟩
    rw [e] at q2; simp at q2
  · obtain ⟨q1, q2, -⟩ := ok.slices n hn
    refine ⟨q1, fun e => ?_⟩
    rw [e] at q2; split at q2 <;> cases q2

/-- **C85.**  If the stream up to the first key picture brings the parameter sets and that picture has a size, there is an initialisation file
at every moment at which there is a segment. -/
theorem init_comes_first (cap : Nat) (hcap : cap < 2 ^ 32) (c : Nalu.Codec) (m : Nat) (hm : m < 2 ^ 31) (secs : Nat) (off : Int)
    (l : List Picture) (hc : Nalu.Chain c l) (hl : ∀ p ∈ l, p.Ok c ∧ p.au.data.length ≤ m) (ho : Opens c l) (n : Nat) (r : State) (outs : List Out)
    (he : runOps (step cap off) (new c m secs) (((l.flatMap Picture.nals).take n).map (·, true)) = .ok (r, outs))
    (hs : outs.filterMap Out.seg ≠ []) : outs.filterMap Out.init ≠ [] := by
  have hi : Nalu.Inv c m (new c m secs).asm := ⟨rfl, rfl, .inl rfl⟩
  obtain ⟨s', os, h1, h2⟩ := Nalu.pictures_are_assembled c m hm (new c m secs).asm hi rfl l hc hl
  have hv : (media c).isVideo = true := by cases c <;> rfl
  have hrel : Dash.Rel (new c m secs).seg ⟨secs * BASE % 2 ^ 32, [], 0⟩ := Dash.fresh_rel hv (Nat.mod_lt _ (by decide)) [] BASE 0 0
  obtain ⟨s1, h3⟩ := runOps_take _ h1 n
  obtain ⟨-, g2⟩ := run_refines hcap _ hrel rfl rfl h3 he
  -- the frames handed on are those of the first pictures
  obtain ⟨A, hA⟩ : ∃ A, (os.take n).filterMap id = A := ⟨_, rfl⟩
  have hpre : A <+: l.dropLast.map Picture.au := by
    rw [← h2, ← hA]
    exact ⟨(os.drop n).filterMap id, by rw [← List.filterMap_append, List.take_append_drop]⟩
  rw [hA] at g2
  -- one of them is a key picture
  have hkey : ∃ f ∈ A, f.intra = true := by
    by_cases hx : ∃ f ∈ A, f.intra = true
    · exact hx
    exfalso
    have hpart := Dash.groups_partition (A.map (frm off)) ⟨secs * BASE % 2 ^ 32, [], 0⟩
    rw [if_pos rfl, List.nil_append] at hpart
    have hd : (A.map (frm off)).dropWhile (fun f => !f.intra) = [] := by
      refine none_left _ fun f hf => ?_
      obtain ⟨a, ha, rfl⟩ := List.mem_map.1 hf
      cases hai : a.intra with
      | true => exact absurd ⟨a, ha, hai⟩ hx
      | false => exact hai
    rw [hd] at hpart
    have hint := Dash.groups_start_intra (A.map (frm off)) ⟨secs * BASE % 2 ^ 32, [], 0⟩ (by simp)
    generalize Dash.Spec.groups ⟨secs * BASE % 2 ^ 32, [], 0⟩ (A.map (frm off)) = G at *
    generalize outs.filterMap Out.seg = S at *
    cases g2 with
    | nil => exact hs rfl
    | cons q _ =>
      obtain ⟨z, zl, hz, _⟩ := hint _ (List.mem_cons_self ..)
      simp [hz] at hpart
  -- the first key picture
  have hall : ∃ p ∈ l, p.key = true := by
    obtain ⟨f, hf, hk⟩ := hkey
    obtain ⟨p, hp, rfl⟩ := List.mem_map.1 (hpre.subset hf)
    exact ⟨p, List.dropLast_subset l hp, hk⟩
  obtain ⟨a, p, b, hl', hna, hpk⟩ := first_key l hall
  obtain ⟨heq, hsz⟩ := ho a p b hl' hna hpk
  have hc1 : Nalu.Chain c (a ++ [p]) := chain_prefix (a ++ [p]) b (by rw [List.append_assoc]; rw [hl'] at hc; exact hc)
  have hl1 : ∀ q ∈ a ++ [p], q.Ok c ∧ q.au.data.length ≤ m := fun q hq => hl q (by
    rw [hl']
    rcases List.mem_append.1 hq with hq | hq
    · exact List.mem_append_left _ hq
    · exact List.mem_append_right _ (by cases List.mem_singleton.1 hq; simp))
  obtain ⟨s2, o1, k1, k2⟩ := Nalu.pictures_are_assembled c m hm (new c m secs).asm hi rfl (a ++ [p]) hc1 hl1
  rw [List.dropLast_concat] at k2
  have hU : l.flatMap Picture.nals = (a ++ [p]).flatMap Picture.nals ++ b.flatMap Picture.nals := by
    rw [hl', ← List.flatMap_append, List.append_assoc]; rfl
  have hwhole := units_whole fun q hq => (hl q hq).1
  rw [hU] at h1 he hwhole
  obtain ⟨U1, hU1⟩ : ∃ U1, (a ++ [p]).flatMap Picture.nals = U1 := ⟨_, rfl⟩
  obtain ⟨U2, hU2⟩ : ∃ U2, b.flatMap Picture.nals = U2 := ⟨_, rfl⟩
  rw [hU1, hU2] at h1 he hwhole
  rw [hU1] at k1 heq
  obtain ⟨s3, o1', o2, j1, j2, j3, j4⟩ := runOps_split _ _ h1
  rw [k1] at j1
  cases j1
  subst j3
  have hlen : a.length < A.length := by
    obtain ⟨f, hf, hk⟩ := hkey
    by_cases hle : A.length ≤ a.length
    · exfalso
      have h4 : A <+: l.map Picture.au := hpre.trans ((List.dropLast_prefix l).map _)
      have h5 : a.map Picture.au <+: l.map Picture.au := by rw [hl', List.map_append]; exact List.prefix_append _ _
      have h6 : A <+: a.map Picture.au := List.prefix_of_prefix_length_le h4 h5 (by simpa using hle)
      obtain ⟨q, hq, rfl⟩ := List.mem_map.1 (h6.subset hf)
      have : q.key = true := hk
      rw [hna q hq] at this
      cases this
    · omega
  have hn : U1.length < n := by
    by_cases hle : n ≤ U1.length
    · exfalso
      rw [List.take_append_of_le_length (by omega)] at hA
      have : A.length ≤ (o1.filterMap id).length := by
        rw [← hA]
        have : (o1.take n).filterMap id <+: o1.filterMap id :=
          ⟨(o1.drop n).filterMap id, by rw [← List.filterMap_append, List.take_append_drop]⟩
        exact this.length_le
      rw [k2, List.length_map] at this
      omega
    · omega
  obtain ⟨k, rfl⟩ : ∃ k, n = U1.length + k := ⟨n - U1.length, by omega⟩
  rw [List.take_length_add_append] at he
  rw [← j4, List.take_length_add_append, List.filterMap_append, k2] at hA
  rw [List.map_append] at he
  obtain ⟨r1, e1, e2, f1, f2, rfl, _⟩ := runOps_split _ _ he
  have hcfg := run_config (c := c) (past := []) U1 (fun x hx => hwhole x (List.mem_append_left _ hx))
    ⟨rfl, .inr (.inr ⟨⟨(by intro x hx; cases hx), (by intro x hx; cases hx), (by intro x hx; cases hx)⟩, fun h => by obtain ⟨x, hx, _⟩ := h.1; cases hx⟩)⟩ f1
  rw [List.filterMap_append]
  rcases hcfg with h | ⟨hcod, h | h | ⟨_, h⟩⟩
  · intro hx; exact h (List.append_eq_nil_iff.1 hx).1
  · exact h.elim
  · obtain ⟨y, hy⟩ := run_asm hcap U1 hrel rfl rfl k1 f1
    obtain ⟨s4, j5⟩ := runOps_take _ j2 k
    -- the next frame is the key picture
    have hnext : ∃ rest, (o2.take k).filterMap id = p.au :: rest := by
      cases hz : (o2.take k).filterMap id with
      | nil => rw [hz] at hA; rw [← hA] at hlen; simp at hlen
      | cons z rest =>
        rw [hz] at hA
        have h4 : A <+: l.map Picture.au := hpre.trans ((List.dropLast_prefix l).map _)
        rw [← hA, hl', List.map_append, List.map_cons] at h4
        have := (List.prefix_append_right_inj _).1 h4
        rw [List.cons_prefix_cons] at this
        exact ⟨rest, by rw [this.1]⟩
    obtain ⟨rest, hrest⟩ := hnext
    have := run_writes (c := c) (U2.take k) (fun x hx => hwhole x (List.mem_append_right _ (List.mem_of_mem_take hx))) hcod hy
      (by rw [hy] at h; exact h) j5 hrest hsz f2
    intro hx; exact this (List.append_eq_nil_iff.1 hx).2
  · exact absurd heq h

/-! ## Cases -/

/-- A stream that begins with a key picture of the film. -/
theorem pic_opens (t : Int) (x : UInt8) (l : List Picture) : Opens .avc (pic t t true x :: l) := by
  intro a p b h1 h2 h3
  cases a with
  | nil =>
    simp only [List.nil_append, List.cons.injEq] at h1
    obtain ⟨rfl, -⟩ := h1
    refine ⟨⟨⟨unitOf t t [0x67, 66, 0, 30], by simp [pic, Picture.nals], ?_⟩, ⟨unitOf t t [0x68, 1], by simp [pic, Picture.nals], ?_⟩, fun h => by cases h⟩,
      show 64 ≠ 0 by decide, show 32 ≠ 0 by decide⟩
    · have : kindOf .avc (unitOf t t [0x67, 66, 0, 30]) = kindOf .avc (unitOf 0 0 [0x67, 66, 0, 30]) := rfl
      rw [this]; decide +kernel
    · have : kindOf .avc (unitOf t t [0x68, 1]) = kindOf .avc (unitOf 0 0 [0x68, 1]) := rfl
      rw [this]; decide +kernel
  | cons q a =>
    simp only [List.cons_append, List.cons.injEq] at h1
    have := h2 q (by simp)
    rw [← h1.1] at this
    cases this

theorem film_opens : Opens .avc (film true 0) := pic_opens 5000000 1 _

/-- The film: a moment with a segment, and the file is there. -/
example (r : State) (outs : List Out) (he : record ((((film true 0).flatMap Picture.nals).take 11).map (·, true)) = .ok (r, outs))
    (hs : outs.filterMap Out.seg ≠ []) : outs.filterMap Out.init ≠ [] :=
  init_comes_first 1000 (by decide) .avc 100 (by decide) 1 5000000 (film true 0)
    (by
      simp only [film, List.map_cons, List.map_nil, Nalu.Chain, and_true]
      refine ⟨?_, ?_, ?_, ?_, ?_, ?_, ?_⟩ <;> exact .inr (by decide))
    (by
      intro p hp
      simp only [film, List.map_cons, List.map_nil, List.mem_cons, List.not_mem_nil, or_false] at hp
      rcases hp with rfl | rfl | rfl | rfl | rfl | rfl | rfl | rfl <;> exact ⟨pic_ok _ _ _ _, by decide +kernel⟩)
    film_opens 11 r outs he hs

example : (summary (record ((((film true 0).flatMap Picture.nals).take 11).map (·, true)))).map (fun x => (x.1.length, x.2)) = some (1, 2) := by decide +kernel

/-- **C85 (counterexample).**  Otherwise there may be segments without it: the film without its parameter sets. -/
theorem segments_without_init : (summary (record ((((film true 0).map fun p => { p with pre := [] }).flatMap Picture.nals).map (·, true)))).map
    (fun x => (x.1.length, x.2)) = some (2, 0) := by decide +kernel

end Lms.Record
