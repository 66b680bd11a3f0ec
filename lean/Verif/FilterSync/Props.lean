import Verif.FilterSync.Lemmas

/-!
# C16: the clock of a time-paced filter; C50: synchronised inputs
-/

namespace Lms.FilterSync

/-- **C16 (decision of a round).**  A round of a filter with a frame time
* is idle if no reader shows a new frame;
* with some new frame within one frame time after the clock, goes on and advances the clock by exactly
  one frame time;
* otherwise, with some new frame older than the clock, produces nothing and leaves the clock;
* otherwise (all new frames are further ahead) goes on with the clock moved to one of them, which is
  beyond the clock plus one frame time, and is the earliest of them if the clock is not negative. -/
theorem round_decision (syncTs frameTime : Int) (hf : 0 < frameTime) (rs : List RV) :
    let r := demandFrameTime syncTs frameTime rs
    (¬ SomeNew rs → r.go = false ∧ r.syncTs = syncTs) ∧
    (SomeOnTime syncTs frameTime rs → r.go = true ∧ r.syncTs = syncTs + frameTime) ∧
    (¬ SomeOnTime syncTs frameTime rs → SomeOld syncTs rs → r.go = false ∧ r.syncTs = syncTs) ∧
    (SomeNew rs → ¬ SomeOnTime syncTs frameTime rs → ¬ SomeOld syncTs rs →
      r.go = true ∧ syncTs + frameTime < r.syncTs ∧
      (0 ≤ syncTs → (∃ x ∈ rs, Beyond syncTs frameTime x r.syncTs) ∧
        ∀ x ∈ rs, ∀ t, Beyond syncTs frameTime x t → r.syncTs ≤ t)) := by
  intro r
  obtain ⟨s1, s2, s3, _⟩ := visit_spec syncTs frameTime hf rs Acc.init (Or.inl rfl)
  simp only [Acc.init, Bool.false_eq_true, false_or, true_and] at s1 s2 s3
  have hr : r = demandFrameTime syncTs frameTime rs := rfl
  clear_value r
  unfold demandFrameTime at hr
  simp only [Acc.init] at hr
  obtain ⟨a, ha⟩ : ∃ a, rs.foldl (visit syncTs frameTime)
    { oos := -1, valid := false, outDated := false, oFrames := [], newFrames := [], deleted := [] } = a := ⟨_, rfl⟩
  simp only [ha] at s1 s2 s3 hr
  have hnewOf : ∀ t x, x ∈ rs → Shows x t → SomeNew rs := fun t x hx hs => ⟨x, hx, t, hs⟩
  refine ⟨?_, ?_, ?_, ?_⟩
  · intro hn
    have : a.newFrames = [] := s3.2 hn
    rw [hr]; simp [this]
  · intro hv
    have hne : a.newFrames ≠ [] := by
      intro h; obtain ⟨x, hx, t, hs, _⟩ := hv; exact (s3.1 h) ⟨x, hx, t, hs⟩
    have hval := s1.2 hv
    rw [hr]; simp [hne, hval]
  · intro hnv ho
    have hne : a.newFrames ≠ [] := by
      intro h; obtain ⟨x, hx, t, hs, _⟩ := ho; exact (s3.1 h) ⟨x, hx, t, hs⟩
    have hval : a.valid = false := by
      cases h : a.valid with
      | false => rfl
      | true => exact absurd (s1.1 h) hnv
    have hod := s2.2 ho
    rw [hr]; simp [hne, hval, hod]
  · intro hn hnv hno
    have hne : a.newFrames ≠ [] := fun h => s3.1 h hn
    have hval : a.valid = false := by
      cases h : a.valid with
      | false => rfl
      | true => exact absurd (s1.1 h) hnv
    have hod : a.outDated = false := by
      cases h : a.outDated with
      | false => rfl
      | true => exact absurd (s2.1 h) hno
    have hbey : ∃ x ∈ rs, ∃ t, Beyond syncTs frameTime x t := by
      obtain ⟨x, hx, t, hs⟩ := hn
      refine ⟨x, hx, t, hs, ?_⟩
      have h1 : ¬ (syncTs ≤ t ∧ t ≤ syncTs + frameTime) := fun h => hnv ⟨x, hx, t, hs, h⟩
      have h2 : ¬ t < syncTs := fun h => hno ⟨x, hx, t, hs, h⟩
      omega
    have hoos : syncTs + frameTime < a.oos := by
      rw [← ha]
      exact oos_beyond syncTs frameTime rs _ (Or.inr hbey) (Or.inl (by simp))
    have hts : r.syncTs = a.oos ∧ r.go = true := by
      rw [hr]
      have : syncTs < a.oos := by omega
      simp [hne, hval, hod, this]
    refine ⟨hts.2, by rw [hts.1]; exact hoos, ?_⟩
    intro hs
    rw [hts.1, ← ha]
    obtain ⟨l1, _, l3⟩ := oos_least syncTs frameTime hs hf rs
      { oos := -1, valid := false, outDated := false, oFrames := [], newFrames := [], deleted := [] } (Or.inl rfl)
    refine ⟨?_, l1⟩
    rcases l3 with l3 | l3
    · rw [ha] at l3; simp only at l3; omega
    · exact l3

/-- The clock never goes back, and advances by at least a frame time whenever the filter goes on. -/
theorem round_clock (syncTs frameTime : Int) (hf : 0 < frameTime) (rs : List RV) :
    let r := demandFrameTime syncTs frameTime rs
    (r.go = false → r.syncTs = syncTs) ∧ (r.go = true → syncTs + frameTime ≤ r.syncTs) := by
  obtain ⟨d1, d2, d3, d4⟩ := round_decision syncTs frameTime hf rs
  intro r
  by_cases hn : SomeNew rs
  · by_cases hv : SomeOnTime syncTs frameTime rs
    · have := d2 hv; exact ⟨fun h => absurd (this.1.symm.trans h) (by simp), fun _ => Int.le_of_eq this.2.symm⟩
    · by_cases ho : SomeOld syncTs rs
      · have := d3 hv ho; exact ⟨fun _ => this.2, fun h => absurd (this.1.symm.trans h) (by simp)⟩
      · have := d4 hn hv ho; exact ⟨fun h => absurd (this.1.symm.trans h) (by simp), fun _ => Int.le_of_lt this.2.1⟩
  · have := d1 hn; exact ⟨fun _ => this.2, fun h => absurd (this.1.symm.trans h) (by simp)⟩

/-- **C16 (monotone).**  Over any sequence of rounds, whatever the readers show, consecutive output
stamps are at least one frame time apart. -/
theorem output_stamps_increase (frameTime : Int) (hf : 0 < frameTime) (h : List (List RV)) (ts : Int) :
    ((rounds frameTime ts h).2).Pairwise (fun a b => a + frameTime ≤ b) ∧
    ∀ o ∈ (rounds frameTime ts h).2, ts + frameTime ≤ o := by
  induction h generalizing ts with
  | nil => simp [rounds]
  | cons rs rest ih =>
    obtain ⟨c1, c2⟩ := round_clock ts frameTime hf rs
    obtain ⟨i1, i2⟩ := ih (demandFrameTime ts frameTime rs).syncTs
    simp only [rounds]
    cases hg : (demandFrameTime ts frameTime rs).go with
    | false =>
      rw [c1 hg] at i1 i2 ⊢
      simp only [Bool.false_eq_true, if_false]
      exact ⟨i1, i2⟩
    | true =>
      have hle := c2 hg
      simp only [if_true]
      refine ⟨List.pairwise_cons.2 ⟨i2, i1⟩, ?_⟩
      intro o ho
      rcases List.mem_cons.1 ho with rfl | ho
      · exact hle
      · have := i2 o ho; omega

/-- Inputs that keep within one frame time of the clock in every round. -/
def OnGrid (frameTime : Int) : Int → List (List RV) → Prop
  | _, [] => True
  | ts, rs :: rest => SomeOnTime ts frameTime rs ∧ OnGrid frameTime (ts + frameTime) rest

/-- **C16 (grid).**  As long as in every round some new input is within one frame time of the clock,
the output stamps are exactly one frame time apart. -/
theorem output_stamps_on_grid (frameTime : Int) (hf : 0 < frameTime) (h : List (List RV)) (ts : Int)
    (hg : OnGrid frameTime ts h) :
    (rounds frameTime ts h).2 = (List.range h.length).map (fun (i : Nat) => ts + frameTime * (i + 1)) := by
  induction h generalizing ts with
  | nil => simp [rounds]
  | cons rs rest ih =>
    obtain ⟨g1, g2⟩ := hg
    obtain ⟨_, d2, _, _⟩ := round_decision ts frameTime hf rs
    obtain ⟨e1, e2⟩ := d2 g1
    simp only [rounds, e1, e2, if_true, List.length_cons, List.range_succ_eq_map, List.map_cons, List.map_map]
    rw [ih _ g2]
    simp only [List.cons.injEq]
    constructor
    · simp
    · apply List.map_congr_left
      intro i _
      simp only [Function.comp, Nat.succ_eq_add_one, Int.natCast_add, Int.mul_add]
      simp only [Int.mul_one, Int.cast_ofNat_Int]
      omega

/-- The frames handed on in a round: every reader that is present and connected contributes what it
shows, new or not, whatever its time. -/
theorem round_frames (syncTs frameTime : Int) (rs : List RV) :
    (demandFrameTime syncTs frameTime rs).oFrames =
      rs.filterMap (fun r => if r.present ∧ r.connected then r.got.map (fun x => (r.id, x.1, x.2)) else none) ∧
    (demandFrameTime syncTs frameTime rs).newFrames =
      rs.filterMap (fun r => if r.present ∧ r.connected ∧ (r.got.map (·.1)) = some true then some r.id else none) ∧
    (demandFrameTime syncTs frameTime rs).deleted =
      rs.filterMap (fun r => if r.present ∧ r.connected then none else some r.id) := by
  obtain ⟨h1, h2, h3⟩ := visit_frames syncTs frameTime rs Acc.init
  simp only [Acc.init, List.nil_append] at h1 h2 h3
  have : (demandFrameTime syncTs frameTime rs).oFrames = (rs.foldl (visit syncTs frameTime) Acc.init).oFrames ∧
      (demandFrameTime syncTs frameTime rs).newFrames = (rs.foldl (visit syncTs frameTime) Acc.init).newFrames ∧
      (demandFrameTime syncTs frameTime rs).deleted = (rs.foldl (visit syncTs frameTime) Acc.init).deleted := by
    unfold demandFrameTime
    simp only
    split
    · exact ⟨rfl, rfl, rfl⟩
    · split <;> exact ⟨rfl, rfl, rfl⟩
  simp only [Acc.init] at this
  exact ⟨this.1.trans h1, this.2.1.trans h2, this.2.2.trans h3⟩

/-- **C16 (recorded exception).**  An input older than the clock is skipped only if no other input is on
time: otherwise it is handed on with the others, as is one that is too early. -/
theorem late_and_early_frames_handed_on :
    let late : RV := { id := 1, present := true, connected := true, cur := some 100, full := false, got := some (true, 100) }
    let onTime : RV := { id := 2, present := true, connected := true, cur := some 1010, full := false, got := some (true, 1010) }
    let early : RV := { id := 3, present := true, connected := true, cur := some 9000, full := false, got := some (true, 9000) }
    demandFrameTime 1000 40 [late, onTime, early] =
      ⟨true, 1040, [(1, true, 100), (2, true, 1010), (3, true, 9000)], [1, 2, 3], []⟩ := by
  decide

/-- **C16 (recorded exception).**  With an input older than the clock and none on time, a round produces
nothing, yet the input that is ahead counts as taken (its reader is told to remove it). -/
theorem early_frame_lost_with_late_one :
    let late : RV := { id := 1, present := true, connected := true, cur := some 100, full := false, got := some (true, 100) }
    let early : RV := { id := 3, present := true, connected := true, cur := some 9000, full := false, got := some (true, 9000) }
    demandFrameTime 1000 40 [late, early] =
      ⟨false, 1000, [(1, true, 100), (3, true, 9000)], [1, 3], []⟩ := by
  decide

/-! ## C50: synchronised inputs -/

theorem wallClock_aux (rs : List RV) (hp : ∀ r ∈ rs, r.present = true) (w0 : Int) :
    let w := rs.foldl (fun w r => if r.present then (if w < (r.cur.getD (-1)) then r.cur.getD (-1) else w) else w) w0
    w0 ≤ w ∧ (∀ r ∈ rs, ∀ t, r.cur = some t → t ≤ w) ∧
    (w = w0 ∨ ∃ r ∈ rs, r.cur.getD (-1) = w) := by
  induction rs generalizing w0 with
  | nil => simp
  | cons r rs ih =>
    have hr := hp r (by simp)
    have hp' : ∀ r ∈ rs, r.present = true := fun x hx => hp x (List.mem_cons_of_mem _ hx)
    simp only [List.foldl_cons, hr, if_true]
    obtain ⟨i1, i2, i3⟩ := ih hp' (if w0 < (r.cur.getD (-1)) then r.cur.getD (-1) else w0)
    have hge : w0 ≤ (if w0 < (r.cur.getD (-1)) then r.cur.getD (-1) else w0) ∧
        r.cur.getD (-1) ≤ (if w0 < (r.cur.getD (-1)) then r.cur.getD (-1) else w0) := by
      split <;> omega
    refine ⟨Int.le_trans hge.1 i1, ?_, ?_⟩
    · intro x hx t ht
      rcases List.mem_cons.1 hx with rfl | hx
      · have : x.cur.getD (-1) = t := by rw [ht]; rfl
        rw [← this]
        exact Int.le_trans hge.2 i1
      · exact i2 x hx t ht
    · rcases i3 with i3 | ⟨x, hx, hxw⟩
      · by_cases h : w0 < r.cur.getD (-1)
        · right
          refine ⟨r, by simp, ?_⟩
          rw [i3, if_pos h]
        · left; rw [i3, if_neg h]
      · exact Or.inr ⟨x, List.mem_cons_of_mem _ hx, hxw⟩

/-- The reader's next frame is more than the margin behind some other reader's. -/
def Lagging (margin : Int) (rs : List RV) (t : Int) : Prop := ∃ r ∈ rs, ∃ u, r.cur = some u ∧ t + margin < u

/-- **C50.**  A filter that synchronises its inputs (no null entry, non-negative times), in a round:
* if every input has a frame, none is full and all next frames lie within the margin, it takes from all;
* otherwise it takes from exactly those inputs that are full or whose next frame is more than the margin
  behind another input's next frame. -/
theorem sync_takes_lagging_inputs (margin : Int) (hm : 0 ≤ margin) (rs : List RV)
    (hp : ∀ r ∈ rs, r.present = true) (ht : ∀ r ∈ rs, ∀ t, r.cur = some t → 0 ≤ t) :
    ∃ ids, framesSync true margin rs = .ok ids ∧
      (((∀ r ∈ rs, ∃ t, r.cur = some t ∧ r.full = false ∧ ¬ Lagging margin rs t) → ids = rs.map (·.id)) ∧
       (¬ (∀ r ∈ rs, ∃ t, r.cur = some t ∧ r.full = false ∧ ¬ Lagging margin rs t) →
          ∀ id, id ∈ ids ↔ ∃ r ∈ rs, r.id = id ∧ ∃ t, r.cur = some t ∧ (r.full = true ∨ Lagging margin rs t))) := by
  obtain ⟨w1, w2, w3⟩ := wallClock_aux rs hp 0
  have hany : (rs.any fun r => !r.present) = false := by
    rw [List.any_eq_false]; intro r hr; simp [hp r hr]
  have hall : rs.filter (·.present) = rs := List.filter_eq_self.2 hp
  have hlag : ∀ t, 0 ≤ t → (wallClock rs - margin > t ↔ Lagging margin rs t) := by
    intro t h0
    constructor
    · intro h
      rcases w3 with w3 | ⟨x, hx, hxw⟩
      · have : wallClock rs = 0 := w3
        omega
      · have hxw' : x.cur.getD (-1) = wallClock rs := hxw
        cases hc : x.cur with
        | none => rw [hc] at hxw'; simp at hxw'; omega
        | some u =>
          rw [hc] at hxw'; simp at hxw'
          exact ⟨x, hx, u, hc, by omega⟩
    · rintro ⟨x, hx, u, hu, hlt⟩
      have : u ≤ wallClock rs := w2 x hx u hu
      omega
  have hmem : ∀ id, id ∈ toPass margin (wallClock rs) rs ↔
      ∃ r ∈ rs, r.id = id ∧ ∃ t, r.cur = some t ∧ (r.full = true ∨ Lagging margin rs t) := by
    intro id
    simp only [toPass, List.mem_map, List.mem_filter]
    constructor
    · rintro ⟨r, ⟨hr, hc⟩, rfl⟩
      refine ⟨r, hr, rfl, ?_⟩
      cases hcur : r.cur with
      | none => rw [hcur] at hc; simp at hc
      | some t =>
        rw [hcur] at hc
        simp only [Bool.or_eq_true, decide_eq_true_eq] at hc
        refine ⟨t, rfl, ?_⟩
        rcases hc with hc | hc
        · exact Or.inl hc
        · exact Or.inr ((hlag t (ht r hr t hcur)).1 hc)
    · rintro ⟨r, hr, rfl, t, hcur, hc⟩
      refine ⟨r, ⟨hr, ?_⟩, rfl⟩
      rw [hcur]
      simp only [Bool.or_eq_true, decide_eq_true_eq]
      rcases hc with hc | hc
      · exact Or.inl hc
      · exact Or.inr ((hlag t (ht r hr t hcur)).2 hc)
  have hcond : ((rs.any fun r => r.cur.isNone) || !(toPass margin (wallClock rs) rs).isEmpty) = true ↔
      ¬ (∀ r ∈ rs, ∃ t, r.cur = some t ∧ r.full = false ∧ ¬ Lagging margin rs t) := by
    constructor
    · intro h hgood
      simp only [Bool.or_eq_true, List.any_eq_true, Bool.not_eq_true', List.isEmpty_eq_false_iff] at h
      rcases h with ⟨r, hr, hn⟩ | h
      · obtain ⟨t, hc, _⟩ := hgood r hr
        rw [hc] at hn; simp at hn
      · obtain ⟨id, hid⟩ := List.exists_mem_of_ne_nil _ h
        obtain ⟨r, hr, _, t, hc, hx⟩ := (hmem id).1 hid
        obtain ⟨t', hc', hf, hl⟩ := hgood r hr
        rw [hc] at hc'; cases hc'
        rcases hx with hx | hx
        · rw [hf] at hx; cases hx
        · exact hl hx
    · intro hbad
      by_cases hn : ∃ r ∈ rs, r.cur = none
      · obtain ⟨r, hr, hc⟩ := hn
        have : (rs.any fun r => r.cur.isNone) = true := List.any_eq_true.2 ⟨r, hr, by simp [hc]⟩
        simp [this]
      · have hex : ∃ r ∈ rs, ∃ t, r.cur = some t ∧ (r.full = true ∨ Lagging margin rs t) := by
          by_cases hex : ∃ r ∈ rs, ∃ t, r.cur = some t ∧ (r.full = true ∨ Lagging margin rs t)
          · exact hex
          · exfalso
            apply hbad
            intro r hr
            cases hc : r.cur with
            | none => exact absurd ⟨r, hr, hc⟩ hn
            | some t =>
              refine ⟨t, rfl, ?_, ?_⟩
              · cases hf : r.full with
                | false => rfl
                | true => exact absurd ⟨r, hr, t, hc, Or.inl hf⟩ hex
              · intro hl; exact hex ⟨r, hr, t, hc, Or.inr hl⟩
        obtain ⟨r, hr, t, hc, hx⟩ := hex
        have hne : toPass margin (wallClock rs) rs ≠ [] :=
          List.ne_nil_of_mem ((hmem r.id).2 ⟨r, hr, rfl, t, hc, hx⟩)
        have : (!(toPass margin (wallClock rs) rs).isEmpty) = true := by simp [hne]
        simp [this]
  by_cases hgood : ∀ r ∈ rs, ∃ t, r.cur = some t ∧ r.full = false ∧ ¬ Lagging margin rs t
  · refine ⟨rs.map (·.id), ?_, fun _ => rfl, fun h => absurd hgood h⟩
    have hc : ((rs.any fun r => r.cur.isNone) || !(toPass margin (wallClock rs) rs).isEmpty) = false :=
      Bool.eq_false_iff.2 (fun h => (hcond.1 h) hgood)
    simp only [framesSync, Bool.not_true, Bool.false_eq_true, if_false, hany, hc, hall]
  · refine ⟨toPass margin (wallClock rs) rs, ?_, fun h => absurd h hgood, fun _ => hmem⟩
    have hc := hcond.2 hgood
    simp only [framesSync, Bool.not_true, Bool.false_eq_true, if_false, hany, hc, if_true]

/-- **C50 (no deadlock of the newest).**  If the newest input is not full, it is held back exactly as
long as another input lags or is empty. -/
theorem newest_input_held_back (margin : Int) (hm : 0 ≤ margin) (rs : List RV)
    (hp : ∀ r ∈ rs, r.present = true) (ht : ∀ r ∈ rs, ∀ t, r.cur = some t → 0 ≤ t)
    (hid : (rs.map (·.id)).Nodup)
    (n : RV) (hn : n ∈ rs) (tn : Int) (hc : n.cur = some tn) (hfull : n.full = false)
    (hnew : ∀ r ∈ rs, ∀ t, r.cur = some t → t ≤ tn)
    (other : ∃ r ∈ rs, ∀ t, r.cur = some t → t + margin < tn) :
    ∃ ids, framesSync true margin rs = .ok ids ∧ n.id ∉ ids := by
  obtain ⟨ids, e, h1, h2⟩ := sync_takes_lagging_inputs margin hm rs hp ht
  refine ⟨ids, e, ?_⟩
  have hbad : ¬ (∀ r ∈ rs, ∃ t, r.cur = some t ∧ r.full = false ∧ ¬ Lagging margin rs t) := by
    intro hg
    obtain ⟨r, hr, hl⟩ := other
    obtain ⟨t, hct, _, hnl⟩ := hg r hr
    exact hnl ⟨n, hn, tn, hc, hl t hct⟩
  rw [h2 hbad]
  rintro ⟨r, hr, hrid, t, hct, hx⟩
  have hrn : r = n := by
    obtain ⟨i, hi, hri⟩ := List.getElem_of_mem hr
    obtain ⟨j, hj, hnj⟩ := List.getElem_of_mem hn
    have : i = j := by
      apply (List.getElem_inj (h₀ := by simpa using hi) (h₁ := by simpa using hj) hid).1
      simp [hri, hnj, hrid]
    subst this
    rw [← hri, ← hnj]
  subst hrn
  rcases hx with hx | ⟨u, hu, v, hv, hlt⟩
  · rw [hfull] at hx; cases hx
  · rw [hc] at hct; cases hct
    have := hnew u hu v hv
    omega

/-- **C50 (recorded exception).**  A null entry (left by a refused connection) makes a synchronising
filter dereference a null pointer. -/
theorem sync_with_null_reader_is_ub (margin : Int) (rs : List RV) (h : ∃ r ∈ rs, r.present = false) :
    framesSync true margin rs = .ub := by
  obtain ⟨r, hr, hp⟩ := h
  have : (rs.any fun r => !r.present) = true := List.any_eq_true.2 ⟨r, hr, by simp [hp]⟩
  simp only [framesSync, Bool.not_true, Bool.false_eq_true, if_false, this, if_true]

/-- **C16/C50 (the whole decision).**  `demandOriginFrames`: a filter without inputs always goes on; one
with inputs but no reader never does; otherwise, when something is selected, the frame time decides
between the two ways of taking frames, and only the timed one moves the clock. -/
theorem demand_decision (maxReaders : Nat) (sync : Bool) (margin syncTs frameTime : Int) (rs : List RV)
    (hp : ∀ r ∈ rs, r.present = true) :
    (maxReaders = 0 → demandOrigin maxReaders sync margin syncTs frameTime rs = .ok ⟨true, syncTs, [], [], []⟩) ∧
    (maxReaders ≠ 0 → rs = [] → demandOrigin maxReaders sync margin syncTs frameTime rs = .ok ⟨false, syncTs, [], [], []⟩) ∧
    (∃ r, demandOrigin maxReaders sync margin syncTs frameTime rs = .ok r ∧ syncTs ≤ r.syncTs ∧
      (frameTime ≤ 0 → r.syncTs = syncTs)) := by
  refine ⟨fun h => by simp [demandOrigin, h], fun h h' => by simp [demandOrigin, h, h'], ?_⟩
  have hany : (rs.any fun r => !r.present) = false := by
    rw [List.any_eq_false]; intro r hr; simp [hp r hr]
  unfold demandOrigin
  split
  · exact ⟨_, rfl, Int.le_refl _, fun _ => rfl⟩
  · split
    · exact ⟨_, rfl, Int.le_refl _, fun _ => rfl⟩
    · have : ∃ ids, framesSync sync margin rs = .ok ids := by
        unfold framesSync
        simp only [hany, Bool.false_eq_true, if_false]
        split
        · exact ⟨_, rfl⟩
        · split <;> exact ⟨_, rfl⟩
      obtain ⟨ids, e⟩ := this
      rw [e]
      simp only [Outcome.bind_ok]
      split
      · exact ⟨_, rfl, Int.le_refl _, fun _ => rfl⟩
      · split
        · exact ⟨_, rfl, Int.le_refl _, fun _ => rfl⟩
        · rename_i hft
          refine ⟨_, rfl, ?_, fun h => absurd h hft⟩
          obtain ⟨c1, c2⟩ := round_clock syncTs frameTime (by omega) rs
          cases hg : (demandFrameTime syncTs frameTime rs).go with
          | false => rw [c1 hg]; exact Int.le_refl _
          | true => have := c2 hg; omega

/-! ## What an unpaced filter takes -/

/-- What is shown by a reader, if it is there and connected. -/
def shown (r : RV) : Option (Bool × Int) := if r.present ∧ r.connected then r.got else none

theorem visitBE_member {rs : List RV} (hd : rs.Pairwise fun x y => x.id ≠ y.id) {r : RV} (hr : r ∈ rs) (a : Acc) :
    visitBE rs a r.id =
      if r.present ∧ r.connected then
        match r.got with
        | none => a
        | some x => { a with oFrames := a.oFrames ++ [(r.id, x.1, x.2)], newFrames := if x.1 then a.newFrames ++ [r.id] else a.newFrames }
      else { a with deleted := a.deleted ++ [r.id] } := by
  have hfind : rs.find? (fun x => x.id == r.id) = some r := by
    induction rs with
    | nil => cases hr
    | cons x rs ih =>
      rw [List.pairwise_cons] at hd
      rcases List.mem_cons.1 hr with rfl | hr
      · simp
      · rw [List.find?_cons_of_neg (by simpa using hd.1 r hr)]
        exact ih hd.2 hr
  unfold visitBE
  rw [hfind]
  by_cases hp : r.present = true <;> by_cases hc : r.connected = true <;> simp [hp, hc]
  cases r.got with
  | none => rfl
  | some x => rfl

theorem bestEffort_fold {rs : List RV} (hd : rs.Pairwise fun x y => x.id ≠ y.id) (sel : List RV) (hs : ∀ r ∈ sel, r ∈ rs) (a : Acc) :
    let b := (sel.map (·.id)).foldl (visitBE rs) a
    b.oFrames = a.oFrames ++ sel.filterMap (fun r => (shown r).map fun x => (r.id, x.1, x.2)) ∧
    b.newFrames = a.newFrames ++ (sel.filter fun r => (shown r).map (·.1) = some true).map (·.id) ∧
    b.deleted = a.deleted ++ (sel.filter fun r => !(r.present && r.connected)).map (·.id) := by
  induction sel generalizing a with
  | nil => simp
  | cons r sel ih =>
    simp only [List.map_cons, List.foldl_cons]
    obtain ⟨i1, i2, i3⟩ := ih (fun x hx => hs x (List.mem_cons_of_mem _ hx)) (visitBE rs a r.id)
    simp only at i1 i2 i3
    rw [i1, i2, i3, visitBE_member hd (hs r List.mem_cons_self)]
    cases hg : r.got with
    | none => by_cases hp : r.present = true <;> by_cases hc : r.connected = true <;> simp [hp, hc, hg, shown, List.filterMap_cons, List.filter_cons]
    | some x =>
      obtain ⟨x, t⟩ := x
      by_cases hp : r.present = true <;> by_cases hc : r.connected = true <;> cases x <;> simp [hp, hc, hg, shown, List.filterMap_cons, List.filter_cons]

/-- **C50.** A filter without frame time hands on what the readers selected show, in their order, and nothing of the others; it goes on
exactly if something of that is new, and releases the frames that are. -/
theorem unpaced_round (syncTs : Int) {rs : List RV} (hd : rs.Pairwise fun x y => x.id ≠ y.id) (sel : List RV) (hs : ∀ r ∈ sel, r ∈ rs) :
    demandBestEffort syncTs rs (sel.map (·.id)) =
      { go := sel.any fun r => (shown r).map (·.1) = some true
        syncTs := syncTs
        oFrames := sel.filterMap fun r => (shown r).map fun x => (r.id, x.1, x.2)
        newFrames := (sel.filter fun r => (shown r).map (·.1) = some true).map (·.id)
        deleted := (sel.filter fun r => !(r.present && r.connected)).map (·.id) } := by
  obtain ⟨h1, h2, h3⟩ := bestEffort_fold hd sel hs Acc.init
  simp only [Acc.init, List.nil_append] at h1 h2 h3
  unfold demandBestEffort
  simp only [Acc.init]
  rw [h1, h2, h3]
  congr 1
  rw [Bool.eq_iff_iff]
  simp

/-- Whether an input is taken from: all are while every one has a frame, none is full and none lags by more than the margin; otherwise
those that are full or lag. -/
def Takes (margin newest : Int) (rs : List RV) (r : RV) : Prop :=
  (∀ x ∈ rs, ∃ t, x.cur = some t ∧ x.full = false ∧ newest - margin ≤ t) ∨ ∃ t, r.cur = some t ∧ (r.full = true ∨ t < newest - margin)

/-- **C50**, the whole round of an unpaced filter that synchronises its inputs, all of them present: exactly the inputs taken from
are shown, in order. -/
theorem synchronised_round {maxReaders : Nat} {margin syncTs frameTime : Int} {rs : List RV} (hm : maxReaders ≠ 0) (hft : frameTime ≤ 0)
    (hp : ∀ r ∈ rs, r.present = true) (hd : rs.Pairwise fun x y => x.id ≠ y.id) :
    ∃ sel : List RV, sel.Sublist rs ∧ (∀ r ∈ rs, (r ∈ sel ↔ Takes margin (wallClock rs) rs r)) ∧
      demandOrigin maxReaders true margin syncTs frameTime rs = .ok
        { go := sel.any fun r => (shown r).map (·.1) = some true
          syncTs := syncTs
          oFrames := sel.filterMap fun r => (shown r).map fun x => (r.id, x.1, x.2)
          newFrames := (sel.filter fun r => (shown r).map (·.1) = some true).map (·.id)
          deleted := (sel.filter fun r => !r.connected).map (·.id) } := by
  have hany : (rs.any fun r => !r.present) = false := by
    rw [List.any_eq_false]; intro r hr; simp [hp r hr]
  have hall : (rs.filter (·.present)) = rs := List.filter_eq_self.2 hp
  have key : ∀ sel : List RV, sel.Sublist rs → framesSync true margin rs = .ok (sel.map (·.id)) →
      demandOrigin maxReaders true margin syncTs frameTime rs = .ok
        { go := sel.any fun r => (shown r).map (·.1) = some true
          syncTs := syncTs
          oFrames := sel.filterMap fun r => (shown r).map fun x => (r.id, x.1, x.2)
          newFrames := (sel.filter fun r => (shown r).map (·.1) = some true).map (·.id)
          deleted := (sel.filter fun r => !r.connected).map (·.id) } := by
    intro sel hsub hf
    have hdel : (sel.filter fun r => !r.connected) = sel.filter fun r => !(r.present && r.connected) := by
      apply List.filter_congr
      intro r hr
      simp [hp r (hsub.subset hr)]
    unfold demandOrigin
    rw [if_neg hm]
    by_cases he : rs = []
    · subst he
      have : sel = [] := List.sublist_nil.1 hsub
      subst this; simp
    · rw [if_neg (by simpa using he), hf, Outcome.bind_ok]
      by_cases hs : sel = []
      · subst hs; simp
      · rw [if_neg (by simpa using hs), if_pos hft, unpaced_round syncTs hd sel (fun r hr => hsub.subset hr), hdel]
  let lag : RV → Bool := fun r => match r.cur with | none => false | some t => r.full || decide (wallClock rs - margin > t)
  have hpass : toPass margin (wallClock rs) rs = (rs.filter lag).map (·.id) := rfl
  have hlag : ∀ r, lag r = true ↔ ∃ t, r.cur = some t ∧ (r.full = true ∨ t < wallClock rs - margin) := by
    intro r
    simp only [lag]
    cases r.cur with
    | none => simp
    | some t => simp
  by_cases hsome : (rs.any fun r => r.cur.isNone) = true ∨ rs.filter lag ≠ []
  · refine ⟨rs.filter lag, List.filter_sublist, ?_, key _ List.filter_sublist ?_⟩
    · intro r hr
      rw [List.mem_filter, hlag]
      refine ⟨fun h => .inr h.2, ?_⟩
      rintro (h | h)
      · rcases hsome with hn | hn
        · obtain ⟨x, hx, hxn⟩ := List.any_eq_true.1 hn
          obtain ⟨t, ht, -⟩ := h x hx
          rw [ht] at hxn; cases hxn
        · exfalso
          apply hn
          rw [List.filter_eq_nil_iff]
          intro x hx hl
          obtain ⟨t, ht, hl⟩ := (hlag x).1 hl
          obtain ⟨t', ht', hf', hle⟩ := h x hx
          rw [ht] at ht'; cases ht'
          rcases hl with hl | hl
          · rw [hf'] at hl; cases hl
          · omega
      · exact ⟨hr, h⟩
    · unfold framesSync
      simp only [hany, Bool.not_true, Bool.false_eq_true, if_false, hpass]
      rw [if_pos (by
        rcases hsome with h | h
        · rw [h]; rfl
        · cases hl : rs.filter lag with
          | nil => exact absurd hl h
          | cons x l => simp)]
  · rw [not_or, Bool.not_eq_true, ne_eq, Classical.not_not] at hsome
    refine ⟨rs, List.Sublist.refl _, ?_, key _ (List.Sublist.refl _) ?_⟩
    · intro r hr
      refine ⟨fun _ => .inl fun x hx => ?_, fun _ => hr⟩
      have h1 := List.any_eq_false.1 hsome.1 x hx
      have h2 := List.filter_eq_nil_iff.1 hsome.2 x hx
      rw [hlag] at h2
      cases hc : x.cur with
      | none => rw [hc] at h1; simp at h1
      | some t =>
        refine ⟨t, rfl, ?_, ?_⟩
        · cases hf : x.full with
          | false => rfl
          | true => exact absurd ⟨t, hc, .inl hf⟩ h2
        · by_cases h : wallClock rs - margin ≤ t
          · exact h
          · exact absurd ⟨t, hc, .inr (by omega)⟩ h2
    · unfold framesSync
      simp only [hany, Bool.not_true, Bool.false_eq_true, if_false, hpass, hsome.1, hsome.2, hall]
      simp

/-- **C50 (recorded exception).** A filter with a frame time takes from every input as soon as the selection is not empty. -/
theorem paced_takes_all {maxReaders : Nat} {sync : Bool} {margin syncTs frameTime : Int} {rs : List RV} {id : Int} {ids : List Int} (hm : maxReaders ≠ 0)
    (hft : 0 < frameTime) (hne : rs ≠ []) (hf : framesSync sync margin rs = .ok (id :: ids)) :
    demandOrigin maxReaders sync margin syncTs frameTime rs = .ok (demandFrameTime syncTs frameTime rs) := by
  unfold demandOrigin
  rw [if_neg hm, if_neg (by simpa using hne), hf, Outcome.bind_ok, if_neg (by simp), if_neg (by omega)]

/-! ## Non-triviality -/

def exR (id t : Int) (isNew : Bool) : RV :=
  { id := id, present := true, connected := true, cur := some t, full := false, got := some (isNew, t) }

/-- Two inputs at 40 ms per frame: two regular outputs, a late frame skipped, a re-anchoring. -/
example : (rounds 40 1000 [[exR 1 1010 true, exR 2 1005 true], [exR 1 1050 true, exR 2 1005 false],
    [exR 1 900 true], [exR 1 5000 true, exR 2 4000 true]]).2 = [1040, 1080, 4000] := by decide

example : OnGrid 40 1000 [[exR 1 1010 true, exR 2 1005 true], [exR 1 1050 true]] :=
  ⟨⟨exR 1 1010 true, by simp, 1010, ⟨rfl, rfl, rfl⟩, by omega, by omega⟩,
   ⟨exR 1 1050 true, by simp, 1050, ⟨rfl, rfl, rfl⟩, by omega, by omega⟩, trivial⟩

example : framesSync true 40000 [exR 1 100000 true, exR 2 150000 true] = .ok [1] := by decide
example : framesSync true 40000 [exR 1 100000 true, exR 2 130000 true] = .ok [1, 2] := by decide

/-- The lagging input of two is shown alone; within the margin both are. -/
example : (demandOrigin 2 true 40000 0 0 [exR 1 100000 true, exR 2 150000 true]).map (·.oFrames) = .ok [(1, true, 100000)] := by decide
example : (demandOrigin 2 true 40000 0 0 [exR 1 100000 true, exR 2 130000 true]).map (·.oFrames) = .ok [(1, true, 100000), (2, true, 130000)] := by decide
/-- With a frame time the one held back is shown too. -/
example : (demandOrigin 2 true 40000 99000 40000 [exR 1 100000 true, exR 2 150000 true]).map (·.oFrames) = .ok [(1, true, 100000), (2, true, 150000)] := by
  decide

end Lms.FilterSync
