import Verif.NetStats.Timers
import Mathlib.Algebra.Order.Field.Basic
import Mathlib.Tactic.Ring
import Mathlib.Tactic.FieldSimp

/-!
# C65: statistics of received streams
-/

namespace Lms.NetStats

/-! ## Spec: what happened to a stream -/

/-- True counts at a time: kilobytes, packets received and expected since the beginning, and the jitter. -/
structure Count where
  time : Nat
  kB : ℚ
  received : Nat
  expected : Nat
  jitter : Nat

/-- What the library tells of them: the packet counters have 32 bits. -/
def Count.sample (c : Count) : Sample := { kB := c.kB, received := c.received % 2 ^ 32, expected := c.expected % 2 ^ 32, jitter := c.jitter }

/-- Kilobits per second in an interval. -/
def rate (a b : Count) : ℚ := 8 * (b.kB - a.kB) / (((b.time : ℚ) - a.time) / 1000000)

/-- Share of packets lost in an interval; none if none was expected. -/
def loss (a b : Count) : ℚ := if a.expected = b.expected then 0 else 1 - ((b.received : ℚ) - a.received) / ((b.expected : ℚ) - a.expected)

/-- The values of consecutive intervals. -/
def intervals {β : Type} (f : Count → Count → β) (a : Count) : List Count → List β
  | [] => []
  | b :: l => f a b :: intervals f b l

/-- Time passes, counters do not go back, and nothing grows by more than 32 bits hold in an interval. -/
def Runs (a : Count) : List Count → Prop
  | [] => True
  | b :: l => (a.time < b.time ∧ b.time < a.time + (2 ^ 32 - 1) * 1000000 ∧ a.kB ≤ b.kB ∧ a.received ≤ b.received ∧ b.received < a.received + 2 ^ 32 ∧
      a.expected ≤ b.expected ∧ b.expected < a.expected + 2 ^ 32) ∧ Runs b l

/-- The statistics after measurements at the given counts. -/
def after (s : RecvStat) (l : List Count) : RecvStat := s.run (l.map fun c => (c.time, some c.sample))

/-! ## Proofs -/

theorem secsBetween_exact (t u : Nat) (h : t ≤ u) (h2 : u < t + (2 ^ 32 - 1) * 1000000) : secsBetween t u = ((u : ℚ) - t) / 1000000 := by
  unfold secsBetween
  have h1 : (u / 1000000 + 2 ^ 32 - t / 1000000 % 2 ^ 32) % 2 ^ 32 = u / 1000000 - t / 1000000 := by omega
  rw [h1, Nat.cast_sub (by omega)]
  have hu := Nat.div_add_mod u 1000000
  have ht := Nat.div_add_mod t 1000000
  have hu' : (u : ℚ) = 1000000 * ((u / 1000000 : Nat) : ℚ) + ((u % 1000000 : Nat) : ℚ) := by exact_mod_cast hu.symm
  have ht' : (t : ℚ) = 1000000 * ((t / 1000000 : Nat) : ℚ) + ((t % 1000000 : Nat) : ℚ) := by exact_mod_cast ht.symm
  generalize ((u / 1000000 : Nat) : ℚ) = a at *
  generalize ((t / 1000000 : Nat) : ℚ) = b at *
  generalize ((u % 1000000 : Nat) : ℚ) = c at *
  generalize ((t % 1000000 : Nat) : ℚ) = d at *
  rw [hu', ht']
  ring

theorem sub32_exact (a b : Nat) (h : a ≤ b) (h2 : b < a + 2 ^ 32) : sub32 (b % 2 ^ 32) (a % 2 ^ 32) = b - a := by
  unfold sub32; omega

/-- The statistics stand at these counts. -/
def At (s : RecvStat) (a : Count) : Prop := s.stop = a.time ∧ s.kB = a.kB ∧ s.received = a.received % 2 ^ 32 ∧ s.expected = a.expected % 2 ^ 32

theorem measure_eq (s : RecvStat) (a b : Count) (h : At s a) (hr : Runs a [b]) :
    At (s.measure b.time (some b.sample)) b ∧
    (s.measure b.time (some b.sample)).kMin = min s.kMin (rate a b) ∧ (s.measure b.time (some b.sample)).kMax = max s.kMax (rate a b) ∧
    (s.measure b.time (some b.sample)).lMin = min s.lMin (loss a b) ∧ (s.measure b.time (some b.sample)).lMax = max s.lMax (loss a b) ∧
    (s.measure b.time (some b.sample)).jMin = min s.jMin b.jitter ∧ (s.measure b.time (some b.sample)).jMax = max s.jMax b.jitter ∧
    (s.measure b.time (some b.sample)).start = s.start ∧ (s.measure b.time (some b.sample)).jitter = b.jitter ∧ 0 ≤ rate a b := by
  obtain ⟨h1, h2, h3, h4⟩ := h
  obtain ⟨⟨r1, r2, r3, r4, r5, r6, r7⟩, -⟩ := hr
  have hdt : (0 : ℚ) < ((b.time : ℚ) - a.time) / 1000000 := by
    have : (a.time : ℚ) < b.time := by exact_mod_cast r1
    apply div_pos <;> linarith
  have hrate : 0 ≤ rate a b := by
    unfold rate
    apply div_nonneg _ hdt.le
    linarith
  have hk : rateNow s.kB b.kB (secsBetween s.stop b.time) = rate a b := by
    unfold rateNow
    rw [h1, h2, secsBetween_exact _ _ r1.le r2, if_neg (ne_of_gt hdt)]
    exact if_neg (not_lt.mpr hrate)
  have hl : lossNow (sub32 (b.received % 2 ^ 32) s.received) (sub32 (b.expected % 2 ^ 32) s.expected) = loss a b := by
    rw [h3, h4, sub32_exact _ _ r4 r5, sub32_exact _ _ r6 r7]
    unfold loss lossNow
    by_cases he : a.expected = b.expected
    · rw [if_pos (by omega), if_pos he]
    · rw [if_neg (by omega), if_neg he, Nat.cast_sub r4, Nat.cast_sub r6]
  refine ⟨⟨rfl, rfl, rfl, rfl⟩, ?_, ?_, ?_, ?_, ?_, ?_, rfl, rfl, hrate⟩
  · simp only [RecvStat.measure, Count.sample, hk]
    rcases lt_or_ge (rate a b) s.kMin with h | h
    · rw [if_pos h, min_eq_right h.le]
    · rw [if_neg (not_lt.mpr h), min_eq_left h]
  · simp only [RecvStat.measure, Count.sample, hk]
    rcases lt_or_ge s.kMax (rate a b) with h | h
    · rw [if_pos h, max_eq_right h.le]
    · rw [if_neg (not_lt.mpr h), max_eq_left h]
  · simp only [RecvStat.measure, Count.sample, hl]
    rcases lt_or_ge (loss a b) s.lMin with h | h
    · rw [if_pos h, min_eq_right h.le]
    · rw [if_neg (not_lt.mpr h), min_eq_left h]
  · simp only [RecvStat.measure, Count.sample, hl]
    rcases lt_or_ge s.lMax (loss a b) with h | h
    · rw [if_pos h, max_eq_right h.le]
    · rw [if_neg (not_lt.mpr h), max_eq_left h]
  · show (if s.jMin > b.jitter then b.jitter else s.jMin) = _
    rcases lt_or_ge b.jitter s.jMin with h | h
    · rw [if_pos h, min_eq_right h.le]
    · rw [if_neg (not_lt.mpr h), min_eq_left h]
  · show (if s.jMax < b.jitter then b.jitter else s.jMax) = _
    rcases lt_or_ge s.jMax b.jitter with h | h
    · rw [if_pos h, max_eq_right h.le]
    · rw [if_neg (not_lt.mpr h), max_eq_left h]

theorem runs_cons {a b : Count} {l : List Count} (h : Runs a (b :: l)) : Runs a [b] ∧ Runs b l := ⟨⟨h.1, trivial⟩, h.2⟩

/-- The end of a list of counts. -/
def lastCount (a : Count) : List Count → Count
  | [] => a
  | b :: l => lastCount b l

theorem after_eq (l : List Count) (s : RecvStat) (a : Count) (h : At s a) (hr : Runs a l) :
    At (after s l) (lastCount a l) ∧ (after s l).start = s.start ∧
    (after s l).kMin = (intervals rate a l).foldl min s.kMin ∧ (after s l).kMax = (intervals rate a l).foldl max s.kMax ∧
    (after s l).lMin = (intervals loss a l).foldl min s.lMin ∧ (after s l).lMax = (intervals loss a l).foldl max s.lMax ∧
    (after s l).jMin = (l.map (·.jitter)).foldl min s.jMin ∧ (after s l).jMax = (l.map (·.jitter)).foldl max s.jMax := by
  induction l generalizing s a with
  | nil => exact ⟨h, rfl, rfl, rfl, rfl, rfl, rfl, rfl⟩
  | cons b l ih =>
    obtain ⟨hb, hl⟩ := runs_cons hr
    obtain ⟨m0, m1, m2, m3, m4, m5, m6, m7, -, -⟩ := measure_eq s a b h hb
    obtain ⟨i0, i1, i2, i3, i4, i5, i6, i7⟩ := ih (s.measure b.time (some b.sample)) b m0 hl
    have e : after s (b :: l) = after (s.measure b.time (some b.sample)) l := rfl
    rw [e]
    simp only [intervals, List.foldl_cons, List.map_cons, lastCount]
    rw [← m1, ← m2, ← m3, ← m4, ← m5, ← m6]
    exact ⟨i0, i1.trans m7, i2, i3, i4, i5, i6, i7⟩

theorem foldl_min_le {β : Type} [LinearOrder β] (l : List β) (x : β) : l.foldl min x ≤ x ∧ (∀ y ∈ l, l.foldl min x ≤ y) ∧ (l.foldl min x = x ∨ l.foldl min x ∈ l) := by
  induction l generalizing x with
  | nil => exact ⟨le_refl _, by simp, Or.inl rfl⟩
  | cons a l ih =>
    obtain ⟨h1, h2, h3⟩ := ih (min x a)
    simp only [List.foldl_cons]
    refine ⟨le_trans h1 (min_le_left _ _), ?_, ?_⟩
    · intro y hy
      rw [List.mem_cons] at hy
      rcases hy with rfl | hy
      · exact le_trans h1 (min_le_right _ _)
      · exact h2 y hy
    · rcases h3 with h3 | h3
      · rcases min_choice x a with h | h
        · exact Or.inl (h3.trans h)
        · exact Or.inr (by rw [h3, h]; exact List.mem_cons_self)
      · exact Or.inr (List.mem_cons_of_mem _ h3)

theorem foldl_max_ge {β : Type} [LinearOrder β] (l : List β) (x : β) : x ≤ l.foldl max x ∧ (∀ y ∈ l, y ≤ l.foldl max x) ∧ (l.foldl max x = x ∨ l.foldl max x ∈ l) := by
  induction l generalizing x with
  | nil => exact ⟨le_refl _, by simp, Or.inl rfl⟩
  | cons a l ih =>
    obtain ⟨h1, h2, h3⟩ := ih (max x a)
    simp only [List.foldl_cons]
    refine ⟨le_trans (le_max_left _ _) h1, ?_, ?_⟩
    · intro y hy
      rw [List.mem_cons] at hy
      rcases hy with rfl | hy
      · exact le_trans (le_max_right _ _) h1
      · exact h2 y hy
    · rcases h3 with h3 | h3
      · rcases max_choice x a with h | h
        · exact Or.inl (h3.trans h)
        · exact Or.inr (by rw [h3, h]; exact List.mem_cons_self)
      · exact Or.inr (List.mem_cons_of_mem _ h3)

/-- The statistics of a stream measured from counts `a` on. -/
def begun (a : Count) : RecvStat := RecvStat.new a.time (some a.sample)

theorem begun_at (a : Count) : At (begun a) a := ⟨rfl, rfl, rfl, rfl⟩

/-- C65: the least and greatest bit rate told are those of the seconds measured (the least one none above 10^20). -/
theorem rates_told (a : Count) (l : List Count) (hr : Runs a l) (hp : ∃ r ∈ intervals rate a l, 0 < r) (hb : ∃ r ∈ intervals rate a l, r < 10 ^ 20) :
    let t := (after (begun a) l).tell
    (∀ r ∈ intervals rate a l, t.rateMin ≤ r ∧ r ≤ t.rateMax) ∧ t.rateMin ∈ intervals rate a l ∧ t.rateMax ∈ intervals rate a l := by
  obtain ⟨-, -, h1, h2, -⟩ := after_eq l (begun a) a (begun_at a) hr
  obtain ⟨mn1, mn2, mn3⟩ := foldl_min_le (intervals rate a l) (begun a).kMin
  obtain ⟨mx1, mx2, mx3⟩ := foldl_max_ge (intervals rate a l) (begun a).kMax
  rw [← h1] at mn1 mn2 mn3
  rw [← h2] at mx1 mx2 mx3
  obtain ⟨p, hp, hp0⟩ := hp
  obtain ⟨b, hb, hb0⟩ := hb
  have hne : (after (begun a) l).kMax ≠ 0 := ne_of_gt (lt_of_lt_of_le hp0 (mx2 p hp))
  simp only [RecvStat.tell, if_neg hne]
  refine ⟨fun r hr => ⟨mn2 r hr, mx2 r hr⟩, ?_, ?_⟩
  · rcases mn3 with h | h
    · have := mn2 b hb
      rw [h] at this
      exact absurd (lt_of_le_of_lt this hb0) (lt_irrefl _)
    · exact h
  · rcases mx3 with h | h
    · exact absurd h hne
    · exact h

/-- C65: nothing received, nothing told. -/
theorem no_rate_told (a : Count) (l : List Count) (hr : Runs a l) (hp : ∀ r ∈ intervals rate a l, r = 0) :
    (after (begun a) l).tell.rateMin = 0 ∧ (after (begun a) l).tell.rateMax = 0 ∧ (after (begun a) l).tell.rateAvg = 0 := by
  obtain ⟨-, -, h1, h2, -⟩ := after_eq l (begun a) a (begun_at a) hr
  obtain ⟨mx1, mx2, mx3⟩ := foldl_max_ge (intervals rate a l) (begun a).kMax
  rw [← h2] at mx3
  have hz : (after (begun a) l).kMax = 0 := by
    rcases mx3 with h | h
    · exact h
    · exact hp _ h
  simp [RecvStat.tell, hz]

theorem span_rate (l : List Count) (a : Count) (hr : Runs a l) (m M : ℚ) (h : ∀ r ∈ intervals rate a l, m ≤ r ∧ r ≤ M) :
    m * (((lastCount a l).time : ℚ) - a.time) ≤ 8000000 * ((lastCount a l).kB - a.kB) ∧
    8000000 * ((lastCount a l).kB - a.kB) ≤ M * (((lastCount a l).time : ℚ) - a.time) ∧ (a.time : ℚ) ≤ (lastCount a l).time ∧ (l ≠ [] → (a.time : ℚ) < (lastCount a l).time) := by
  induction l generalizing a with
  | nil => simp [lastCount]
  | cons b l ih =>
    obtain ⟨hb, hl⟩ := runs_cons hr
    obtain ⟨i1, i2, i3, -⟩ := ih b hl fun r hr => h r (List.mem_cons_of_mem _ hr)
    obtain ⟨hm, hM⟩ := h (rate a b) (by rw [intervals]; exact List.mem_cons_self)
    have ht : (a.time : ℚ) < b.time := by exact_mod_cast hb.1.1
    have hd : (0 : ℚ) < ((b.time : ℚ) - a.time) / 1000000 := by apply div_pos <;> linarith
    unfold rate at hm hM
    rw [le_div_iff₀ hd] at hm
    rw [div_le_iff₀ hd] at hM
    simp only [lastCount]
    refine ⟨?_, ?_, by linarith, fun _ => by linarith⟩
    · have : m * (((lastCount b l).time : ℚ) - a.time) = m * (((lastCount b l).time : ℚ) - b.time) + 1000000 * (m * (((b.time : ℚ) - a.time) / 1000000)) := by ring
      linarith
    · have : M * (((lastCount b l).time : ℚ) - a.time) = M * (((lastCount b l).time : ℚ) - b.time) + 1000000 * (M * (((b.time : ℚ) - a.time) / 1000000)) := by ring
      linarith

/-- C65: the average bit rate lies between the least and the greatest one if measurement began with the stream. -/
theorem average_rate (a : Count) (l : List Count) (hr : Runs a l) (h0 : a.kB = 0) (hspan : (lastCount a l).time < a.time + (2 ^ 32 - 1) * 1000000) :
    let t := (after (begun a) l).tell
    t.rateMin ≤ t.rateAvg ∧ t.rateAvg ≤ t.rateMax := by
  obtain ⟨hat, hstart, h1, h2, -⟩ := after_eq l (begun a) a (begun_at a) hr
  obtain ⟨mn1, mn2, mn3⟩ := foldl_min_le (intervals rate a l) (begun a).kMin
  obtain ⟨mx1, mx2, mx3⟩ := foldl_max_ge (intervals rate a l) (begun a).kMax
  rw [← h1] at mn1 mn2 mn3
  rw [← h2] at mx1 mx2 mx3
  obtain ⟨s1, s2, s3, s4⟩ := span_rate l a hr (after (begun a) l).kMin (after (begun a) l).kMax fun r hr => ⟨mn2 r hr, mx2 r hr⟩
  by_cases hz : (after (begun a) l).kMax = 0
  · simp [RecvStat.tell, hz]
  · have hne : l ≠ [] := by
      rintro rfl
      exact hz rfl
    have hlt := s4 hne
    have hlt' : a.time < (lastCount a l).time := by exact_mod_cast hlt
    have hsecs : secsBetween (after (begun a) l).start (after (begun a) l).stop = (((lastCount a l).time : ℚ) - a.time) / 1000000 := by
      rw [hstart, hat.1]
      exact secsBetween_exact _ _ hlt'.le hspan
    have hpos : (0 : ℚ) < (((lastCount a l).time : ℚ) - a.time) / 1000000 := by apply div_pos <;> linarith
    simp only [RecvStat.tell, if_neg hz, hsecs, if_neg (ne_of_gt hpos), hat.2.1]
    rw [h0] at s1 s2
    constructor
    · rw [le_div_iff₀ hpos]
      have : (after (begun a) l).kMin * ((((lastCount a l).time : ℚ) - a.time) / 1000000) = (after (begun a) l).kMin * (((lastCount a l).time : ℚ) - a.time) / 1000000 := by ring
      rw [this, div_le_iff₀ (by norm_num)]
      linarith
    · rw [div_le_iff₀ hpos]
      have : (after (begun a) l).kMax * ((((lastCount a l).time : ℚ) - a.time) / 1000000) = (after (begun a) l).kMax * (((lastCount a l).time : ℚ) - a.time) / 1000000 := by ring
      rw [this, le_div_iff₀ (by norm_num)]
      linarith

theorem loss_le_one (l : List Count) (a : Count) (hr : Runs a l) : ∀ r ∈ intervals loss a l, r ≤ 1 := by
  induction l generalizing a with
  | nil => intro r h; cases h
  | cons b l ih =>
    obtain ⟨hb, hl⟩ := runs_cons hr
    intro r h
    rw [intervals, List.mem_cons] at h
    rcases h with rfl | h
    · unfold loss
      split
      · norm_num
      · have h1 : (a.received : ℚ) ≤ b.received := by exact_mod_cast hb.1.2.2.2.1
        have h2 : (a.expected : ℚ) ≤ b.expected := by exact_mod_cast hb.1.2.2.2.2.2.1
        have := div_nonneg (by linarith : (0 : ℚ) ≤ (b.received : ℚ) - a.received) (by linarith : (0 : ℚ) ≤ (b.expected : ℚ) - a.expected)
        linarith
    · exact ih b hl r h

theorem ite_ge (p : Prop) [Decidable p] (x y : ℚ) {z : ℚ} (h1 : z ≤ x) (h2 : z ≤ y) : z ≤ if p then x else y := by
  split
  · exact h1
  · exact h2

/-- C65: the least loss told is that of the best second (at most all), the greatest that of the worst (at least none). -/
theorem losses_told (a : Count) (l : List Count) (hr : Runs a l) :
    let s := after (begun a) l
    (∀ r ∈ intervals loss a l, s.tell.lossMin ≤ 100 * r ∧ 100 * r ≤ s.tell.lossMax) ∧ (s.tell.lossMin = 100 ∨ ∃ r ∈ intervals loss a l, s.tell.lossMin = 100 * r) ∧
    (s.tell.lossMax = 100 ∧ s.tell.lossAvg = 100 ∨ s.tell.lossMax = 0 ∨ ∃ r ∈ intervals loss a l, s.tell.lossMax = 100 * r) := by
  obtain ⟨-, -, -, -, h1, h2, -⟩ := after_eq l (begun a) a (begun_at a) hr
  obtain ⟨mn1, mn2, mn3⟩ := foldl_min_le (intervals loss a l) (begun a).lMin
  obtain ⟨mx1, mx2, mx3⟩ := foldl_max_ge (intervals loss a l) (begun a).lMax
  rw [← h1] at mn1 mn2 mn3
  rw [← h2] at mx1 mx2 mx3
  simp only [RecvStat.tell]
  refine ⟨fun r hr' => ⟨by linarith [mn2 r hr'], by
    have h1 := mx2 r hr'
    have h2 := loss_le_one l a hr r hr'
    exact ite_ge _ _ _ (by linarith) (by linarith)⟩, ?_, ?_⟩
  · rcases mn3 with h | h
    · exact Or.inl (by rw [h]; norm_num [begun, RecvStat.new])
    · exact Or.inr ⟨_, h, rfl⟩
  · generalize (if (if (after (begun a) l).expected = 0 then (1 : ℚ) else 1 - ((after (begun a) l).received : ℚ) / ((after (begun a) l).expected : ℚ)) < 0 then (0 : ℚ)
      else (if (after (begun a) l).expected = 0 then (1 : ℚ) else 1 - ((after (begun a) l).received : ℚ) / ((after (begun a) l).expected : ℚ))) = L
    by_cases hL : L = 1
    · exact Or.inl ⟨by rw [if_pos hL], by rw [hL]; norm_num⟩
    · rw [if_neg hL]
      rcases mx3 with h | h
      · exact Or.inr (Or.inl (by rw [h]; norm_num [begun, RecvStat.new]))
      · exact Or.inr (Or.inr ⟨_, h, rfl⟩)

theorem span_loss (l : List Count) (a : Count) (hr : Runs a l) (hz : ∀ x ∈ intervals (fun a b => (a, b)) a l, x.1.expected = x.2.expected → x.1.received = x.2.received)
    (m M : ℚ) (h : ∀ r ∈ intervals loss a l, m ≤ r ∧ r ≤ M) :
    m * (((lastCount a l).expected : ℚ) - a.expected) ≤ (((lastCount a l).expected : ℚ) - a.expected) - (((lastCount a l).received : ℚ) - a.received) ∧
    (((lastCount a l).expected : ℚ) - a.expected) - (((lastCount a l).received : ℚ) - a.received) ≤ M * (((lastCount a l).expected : ℚ) - a.expected) := by
  induction l generalizing a with
  | nil => simp [lastCount]
  | cons b l ih =>
    obtain ⟨hb, hl⟩ := runs_cons hr
    obtain ⟨i1, i2⟩ := ih b hl (fun x hx => hz x (List.mem_cons_of_mem _ hx)) fun r hr => h r (List.mem_cons_of_mem _ hr)
    obtain ⟨hm, hM⟩ := h (loss a b) (by rw [intervals]; exact List.mem_cons_self)
    have hzab := hz (a, b) (by rw [intervals]; exact List.mem_cons_self)
    simp only at hzab
    have hle : a.expected ≤ b.expected := hb.1.2.2.2.2.2.1
    simp only [lastCount]
    unfold loss at hm hM
    by_cases he : a.expected = b.expected
    · rw [he, hzab he]
      exact ⟨i1, i2⟩
    · rw [if_neg he] at hm hM
      have hd : (0 : ℚ) < (b.expected : ℚ) - a.expected := by
        have : (a.expected : ℚ) < b.expected := by exact_mod_cast lt_of_le_of_ne hle he
        linarith
      have hm' : m * ((b.expected : ℚ) - a.expected) ≤ ((b.expected : ℚ) - a.expected) - ((b.received : ℚ) - a.received) := by
        have := mul_le_mul_of_nonneg_right hm hd.le
        rwa [sub_mul, one_mul, div_mul_cancel₀ _ (ne_of_gt hd)] at this
      have hM' : ((b.expected : ℚ) - a.expected) - ((b.received : ℚ) - a.received) ≤ M * ((b.expected : ℚ) - a.expected) := by
        have := mul_le_mul_of_nonneg_right hM hd.le
        rwa [sub_mul, one_mul, div_mul_cancel₀ _ (ne_of_gt hd)] at this
      constructor
      · have : m * (((lastCount b l).expected : ℚ) - a.expected) = m * (((lastCount b l).expected : ℚ) - b.expected) + m * ((b.expected : ℚ) - a.expected) := by ring
        linarith
      · have : M * (((lastCount b l).expected : ℚ) - a.expected) = M * (((lastCount b l).expected : ℚ) - b.expected) + M * ((b.expected : ℚ) - a.expected) := by ring
        linarith

/-- C65: the average loss told lies between the least and the greatest one, if measurement began with the stream, packets arrive only in seconds where
some are expected, and fewer than 2^32 were expected in all. -/
theorem average_loss (a : Count) (l : List Count) (hr : Runs a l) (h0 : a.received = 0 ∧ a.expected = 0)
    (hz : ∀ x ∈ intervals (fun a b => (a, b)) a l, x.1.expected = x.2.expected → x.1.received = x.2.received)
    (hb : (lastCount a l).received < 2 ^ 32 ∧ (lastCount a l).expected < 2 ^ 32) :
    let t := (after (begun a) l).tell
    t.lossMin ≤ t.lossAvg ∧ t.lossAvg ≤ t.lossMax := by
  obtain ⟨hat, -, -, -, h1, h2, -⟩ := after_eq l (begun a) a (begun_at a) hr
  obtain ⟨mn1, mn2, mn3⟩ := foldl_min_le (intervals loss a l) (begun a).lMin
  obtain ⟨mx1, mx2, mx3⟩ := foldl_max_ge (intervals loss a l) (begun a).lMax
  rw [← h1] at mn1 mn2 mn3
  rw [← h2] at mx1 mx2 mx3
  obtain ⟨s1, s2⟩ := span_loss l a hr hz (after (begun a) l).lMin (after (begun a) l).lMax fun r hr => ⟨mn2 r hr, mx2 r hr⟩
  rw [h0.1, h0.2] at s1 s2
  have hR : (after (begun a) l).received = (lastCount a l).received := by rw [hat.2.2.1, Nat.mod_eq_of_lt hb.1]
  have hE : (after (begun a) l).expected = (lastCount a l).expected := by rw [hat.2.2.2, Nat.mod_eq_of_lt hb.2]
  have hmin1 : (after (begun a) l).lMin ≤ 1 := mn1
  have hmax0 : 0 ≤ (after (begun a) l).lMax := mx1
  simp only [RecvStat.tell, hR, hE]
  obtain ⟨L, hL⟩ : ∃ L : ℚ, L = (if (lastCount a l).expected = 0 then 1 else 1 - ((lastCount a l).received : ℚ) / ((lastCount a l).expected : ℚ)) := ⟨_, rfl⟩
  rw [← hL]
  have hlo : (after (begun a) l).lMin ≤ L := by
    rw [hL]
    split
    · exact hmin1
    · rename_i he
      have hp : (0 : ℚ) < (lastCount a l).expected := by exact_mod_cast Nat.pos_of_ne_zero he
      rw [le_sub_iff_add_le, ← le_sub_iff_add_le', div_le_iff₀ hp]
      simp only [Nat.cast_zero, sub_zero] at s1
      linarith
  have hhi : L ≠ 1 → L ≤ (after (begun a) l).lMax := by
    intro hne
    rw [hL] at hne ⊢
    split
    · rename_i he; rw [if_pos he] at hne; exact absurd rfl hne
    · rename_i he
      have hp : (0 : ℚ) < (lastCount a l).expected := by exact_mod_cast Nat.pos_of_ne_zero he
      rw [sub_le_iff_le_add, ← sub_le_iff_le_add', le_div_iff₀ hp]
      simp only [Nat.cast_zero, sub_zero] at s2
      linarith
  by_cases hneg : L < 0
  · rw [if_pos hneg, if_neg (by norm_num)]
    constructor <;> linarith
  · rw [if_neg hneg]
    refine ⟨by linarith, ?_⟩
    by_cases h1 : L = 1
    · rw [if_pos h1, h1]; norm_num
    · rw [if_neg h1]
      linarith [hhi h1]

/-- C65: jitter: the present one, the greatest, and the least not above 40000. -/
theorem jitter_told (a : Count) (l : List Count) (hr : Runs a l) :
    let t := (after (begun a) l).tell
    (∀ x ∈ l, t.jitMin ≤ x.jitter ∧ x.jitter ≤ t.jitMax) ∧ (t.jitMin = 40000 ∨ ∃ x ∈ l, t.jitMin = x.jitter) ∧ (t.jitMax = 0 ∨ ∃ x ∈ l, t.jitMax = x.jitter) ∧
    ∀ c l', l = l' ++ [c] → t.jitCur = c.jitter := by
  obtain ⟨-, -, -, -, -, -, h1, h2⟩ := after_eq l (begun a) a (begun_at a) hr
  obtain ⟨mn1, mn2, mn3⟩ := foldl_min_le (l.map (·.jitter)) (begun a).jMin
  obtain ⟨mx1, mx2, mx3⟩ := foldl_max_ge (l.map (·.jitter)) (begun a).jMax
  rw [← h1] at mn1 mn2 mn3
  rw [← h2] at mx1 mx2 mx3
  simp only [RecvStat.tell]
  refine ⟨fun x hx => ⟨mn2 _ (List.mem_map.mpr ⟨x, hx, rfl⟩), mx2 _ (List.mem_map.mpr ⟨x, hx, rfl⟩)⟩, ?_, ?_, ?_⟩
  · rcases mn3 with h | h
    · exact Or.inl h
    · obtain ⟨x, hx, e⟩ := List.mem_map.mp h
      exact Or.inr ⟨x, hx, e.symm⟩
  · rcases mx3 with h | h
    · exact Or.inl h
    · obtain ⟨x, hx, e⟩ := List.mem_map.mp h
      exact Or.inr ⟨x, hx, e.symm⟩
  · rintro c l' rfl
    have : ∀ (l : List (Nat × Option Sample)) (s : RecvStat) (m : Nat × Option Sample), s.run (l ++ [m]) = (s.run l).measure m.1 m.2 := by
      intro l
      induction l with
      | nil => intro s m; rfl
      | cons x l ih => intro s m; exact ih _ _
    unfold after
    rw [List.map_append, List.map_singleton, this]
    rfl

/-! ## Examples and recorded exceptions -/

/-- Three seconds of a stream: 100 kB and 100 packets, 300 kB with half of 400 packets lost, nothing. -/
def aStream : List Count := [⟨1000000, 100, 100, 100, 50⟩, ⟨2000000, 400, 300, 500, 70⟩, ⟨3000000, 400, 300, 500, 20⟩]
def aStart : Count := ⟨0, 0, 0, 0, 0⟩

theorem aStream_runs : Runs aStart aStream ∧ aStart.kB = 0 ∧ (∀ x ∈ intervals (fun a b => (a, b)) aStart aStream, x.1.expected = x.2.expected → x.1.received = x.2.received) := by
  refine ⟨?_, rfl, ?_⟩
  · unfold aStream aStart
    simp only [Runs]
    norm_num
  · unfold aStream aStart
    simp only [intervals]
    intro x hx
    simp only [List.mem_cons, List.not_mem_nil, or_false] at hx
    rcases hx with rfl | rfl | rfl <;> decide

theorem aStream_rates : intervals rate aStart aStream = [800, 2400, 0] := by
  unfold aStream aStart
  simp only [intervals, rate]
  norm_num

theorem aStream_losses : intervals loss aStart aStream = [0, 1 / 2, 0] := by
  unfold aStream aStart
  simp only [intervals, loss]
  norm_num

/-- C65, recorded: packets arriving out of order over the end of a second give a negative least loss. -/
theorem negative_loss : (after (begun aStart) [⟨1000000, 1, 8, 10, 0⟩, ⟨2000000, 2, 20, 20, 0⟩]).tell.lossMin = -20 := by
  have hr : Runs aStart [⟨1000000, 1, 8, 10, 0⟩, ⟨2000000, 2, 20, 20, 0⟩] := by
    unfold aStart; simp only [Runs]; norm_num
  obtain ⟨-, -, -, -, h, -⟩ := after_eq _ (begun aStart) aStart (begun_at aStart) hr
  simp only [RecvStat.tell]
  rw [h]
  unfold aStart
  simp only [intervals, loss, begun, RecvStat.new, List.foldl_cons, List.foldl_nil]
  norm_num

/-- C65, recorded: bytes received before measurement began count in the average: it exceeds the greatest rate. -/
theorem average_above_greatest : let t := (after (begun ⟨0, 1000, 0, 0, 0⟩) [⟨1000000, 1001, 1, 1, 0⟩]).tell
    t.rateMax = 8 ∧ t.rateAvg = 8008 := by
  have hr : Runs ⟨0, 1000, 0, 0, 0⟩ [⟨1000000, 1001, 1, 1, 0⟩] := by
    simp only [Runs]; norm_num
  obtain ⟨hat, hs, h1, h2, -⟩ := after_eq _ (begun ⟨0, 1000, 0, 0, 0⟩) _ (begun_at _) hr
  have hmax : (after (begun ⟨0, 1000, 0, 0, 0⟩) [⟨1000000, 1001, 1, 1, 0⟩]).kMax = 8 := by
    rw [h2]
    simp only [intervals, rate, begun, RecvStat.new, List.foldl_cons, List.foldl_nil]
    norm_num
  have hsec : secsBetween 0 1000000 = 1 := by rw [secsBetween_exact 0 1000000 (by omega) (by omega)]; norm_num
  simp only [RecvStat.tell, hmax, hs, hat.1, hat.2.1, lastCount]
  have : (begun ⟨0, 1000, 0, 0, 0⟩).start = 0 := rfl
  rw [this, hsec]
  norm_num

/-- C65, recorded: when the clock is set back by a second the interval counts as 136 years, so that whatever came in it the rate is about none. -/
theorem clock_set_back : secsBetween 5000000 4000000 = 4294967295 := by
  unfold secsBetween; norm_num

/-- A rate is never negative: when the number of bytes seems to have gone back, it is zero. -/
theorem rateNow_eq (before now secs : ℚ) (h : secs ≠ 0) : rateNow before now secs = max 0 (8 * (now - before) / secs) := by
  unfold rateNow
  rw [if_neg h]
  rcases lt_or_ge (8 * (now - before) / secs) 0 with h | h
  · rw [if_pos h, max_eq_left h.le]
  · rw [if_neg (not_lt.mpr h), max_eq_right h]

theorem rateNow_zero (before now : ℚ) : rateNow before now 0 = 0 := if_pos rfl

/-- **C65.** Whatever is measured, the rates kept are not negative. -/
theorem rates_not_negative (s : RecvStat) (now : Nat) (x : Option Sample) (h1 : 0 ≤ s.kMin) (h2 : 0 ≤ s.kMax) :
    0 ≤ (s.measure now x).kMin ∧ 0 ≤ (s.measure now x).kMax ∧
    (∀ y, x = some y → y.kB < s.kB → 0 < secsBetween s.stop now → (s.measure now x).kMin = 0 ∧ (s.measure now x).kMax = s.kMax) := by
  cases x with
  | none => exact ⟨h1, h2, fun y h => by cases h⟩
  | some x =>
    have hk : 0 ≤ rateNow s.kB x.kB (secsBetween s.stop now) := by
      by_cases h : secsBetween s.stop now = 0
      · rw [h, rateNow_zero]
      · rw [rateNow_eq _ _ _ h]; exact le_max_left _ _
    refine ⟨?_, ?_, ?_⟩
    · show 0 ≤ if _ < _ then _ else _
      split <;> assumption
    · show 0 ≤ if _ < _ then _ else _
      split <;> assumption
    · intro y hy hlt hs
      cases hy
      have : rateNow s.kB x.kB (secsBetween s.stop now) = 0 := by
        rw [rateNow_eq _ _ _ (ne_of_gt hs)]
        exact max_eq_left (div_nonpos_of_nonpos_of_nonneg (by linarith) hs.le)
      constructor
      · show (if _ < _ then _ else _) = _
        rw [this]
        split
        · rfl
        · rename_i hn; exact le_antisymm (not_lt.1 hn) h1
      · show (if _ < _ then _ else _) = _
        rw [this]
        split
        · rename_i hn; exact absurd hn (not_lt.2 h2)
        · rfl

end Lms.NetStats
