import Mathlib.Algebra.Order.Field.Basic
import Mathlib.Algebra.Order.BigOperators.Group.List
import Mathlib.Data.Rat.Floor
import Mathlib.Tactic.Linarith
import Mathlib.Tactic.Ring
import Mathlib.Tactic.FieldSimp
import Mathlib.Tactic.NormNum
import Mathlib.Tactic.Positivity
import Verif.AudioMixer.Props

/-!
# C31, C33: levels

The compressor of `mixSample` in exact arithmetic, over every ordered field (rounding of single-precision numbers is not
modelled).
-/

namespace Lms.AudioMixer

open Lms

section Field

variable {K : Type} [Field K] [LinearOrder K] [IsStrictOrderedRing K]

/-- AudioMixer.cpp:172-176: the compressor with threshold `th`. -/
def compress (th x : K) : K :=
  if x > th then ((1 - th) / (2 - th)) * x + th / (2 - th)
  else if x < -th then ((1 - th) / (2 - th)) * x - th / (2 - th)
  else x

/-- AudioMixer.cpp:168-177 `mixSample` and the zero of 46, 212. -/
def exact (th : K) : Alg K := ⟨0, fun s g m acc => compress th (acc + s * g * m)⟩

/-- **C33, identity below the threshold.** -/
theorem compress_id (th x : K) (h : |x| ≤ th) : compress th x = x := by
  have := abs_le.1 h
  unfold compress
  rw [if_neg (by linarith), if_neg (by linarith)]

/-- **C33, odd.** -/
theorem compress_odd (th x : K) (h0 : 0 ≤ th) : compress th (-x) = -compress th x := by
  unfold compress
  by_cases h1 : x > th
  · rw [if_neg (by linarith), if_pos (by linarith), if_pos h1]; ring
  · by_cases h2 : x < -th
    · rw [if_pos (by linarith), if_neg h1, if_pos h2]; ring
    · rw [if_neg (by linarith), if_neg (by linarith), if_neg h1, if_neg h2]

theorem slope_pos (th : K) (h1 : th < 1) : 0 < (1 - th) / (2 - th) := div_pos (by linarith) (by linarith)

/-- The upper branch reaches the threshold at the threshold and 1 at 2. -/
theorem upper (th x : K) (h1 : th < 1) : ((1 - th) / (2 - th)) * x + th / (2 - th) = th + ((1 - th) / (2 - th)) * (x - th) ∧
    ((1 - th) / (2 - th)) * x + th / (2 - th) = 1 + ((1 - th) / (2 - th)) * (x - 2) := by
  have h2 : (2 - th) ≠ 0 := by intro h; linarith
  constructor
  · field_simp; ring
  · field_simp; ring

theorem lower (th x : K) (h1 : th < 1) : ((1 - th) / (2 - th)) * x - th / (2 - th) = -th + ((1 - th) / (2 - th)) * (x + th) ∧
    ((1 - th) / (2 - th)) * x - th / (2 - th) = -1 + ((1 - th) / (2 - th)) * (x + 2) := by
  have h2 : (2 - th) ≠ 0 := by intro h; linarith
  constructor
  · field_simp; ring
  · field_simp; ring

/-- **C33, strictly monotone.** -/
theorem compress_mono (th x y : K) (h0 : 0 ≤ th) (h1 : th < 1) (h : x < y) : compress th x < compress th y := by
  have hs := slope_pos th h1
  unfold compress
  by_cases a1 : x > th
  · rw [if_pos a1, if_pos (by linarith)]
    have := mul_lt_mul_of_pos_left h hs
    linarith
  · rw [if_neg a1]
    by_cases a2 : x < -th
    · rw [if_pos a2, (lower th x h1).1]
      have e : ((1 - th) / (2 - th)) * (x + th) < 0 := mul_neg_of_pos_of_neg hs (by linarith)
      by_cases b1 : y > th
      · rw [if_pos b1, (upper th y h1).1]
        have := mul_pos hs (show 0 < y - th by linarith)
        linarith
      · rw [if_neg b1]
        by_cases b2 : y < -th
        · rw [if_pos b2, (lower th y h1).1]
          have := mul_lt_mul_of_pos_left (show x + th < y + th by linarith) hs
          linarith
        · rw [if_neg b2]; linarith
    · rw [if_neg a2]
      by_cases b1 : y > th
      · rw [if_pos b1, (upper th y h1).1]
        have := mul_pos hs (show 0 < y - th by linarith)
        linarith
      · rw [if_neg b1, if_neg (by linarith)]; exact h

/-- **C33, range.** A sum of two values of the closed range is brought back into it. -/
theorem compress_range (th m s : K) (h0 : 0 ≤ th) (h1 : th < 1) (hm : |m| ≤ 1) (hs : |s| ≤ 1) : |compress th (m + s)| ≤ 1 := by
  obtain ⟨m1, m2⟩ := abs_le.1 hm
  obtain ⟨s1, s2⟩ := abs_le.1 hs
  have hp := slope_pos th h1
  rw [abs_le]
  unfold compress
  by_cases a1 : m + s > th
  · rw [if_pos a1]
    have e1 := mul_pos hp (show 0 < m + s - th by linarith)
    have e2 := mul_nonneg hp.le (show 0 ≤ 2 - (m + s) by linarith)
    constructor
    · rw [(upper th _ h1).1]; linarith
    · rw [(upper th _ h1).2]; linarith
  · rw [if_neg a1]
    by_cases a2 : m + s < -th
    · rw [if_pos a2]
      have e1 := mul_pos hp (show 0 < -(m + s) - th by linarith)
      have e2 := mul_nonneg hp.le (show 0 ≤ 2 + (m + s) by linarith)
      constructor
      · rw [(lower th _ h1).2]; linarith
      · rw [(lower th _ h1).1]; linarith
    · rw [if_neg a2]; constructor <;> linarith

/-- **C33, open range.** Below full scale the sum stays below full scale. -/
theorem compress_open (th m s : K) (h0 : 0 ≤ th) (h1 : th < 1) (hm : |m| < 1) (hs : |s| ≤ 1) : |compress th (m + s)| < 1 := by
  obtain ⟨m1, m2⟩ := abs_lt.1 hm
  obtain ⟨s1, s2⟩ := abs_le.1 hs
  have hp := slope_pos th h1
  rw [abs_lt]
  unfold compress
  by_cases a1 : m + s > th
  · rw [if_pos a1]
    have e1 := mul_pos hp (show 0 < m + s - th by linarith)
    have e2 := mul_pos hp (show 0 < 2 - (m + s) by linarith)
    constructor
    · rw [(upper th _ h1).1]; linarith
    · rw [(upper th _ h1).2]; linarith
  · rw [if_neg a1]
    by_cases a2 : m + s < -th
    · rw [if_pos a2]
      have e1 := mul_pos hp (show 0 < -(m + s) - th by linarith)
      have e2 := mul_pos hp (show 0 < 2 + (m + s) by linarith)
      constructor
      · rw [(lower th _ h1).2]; linarith
      · rw [(lower th _ h1).1]; linarith
    · rw [if_neg a2]; constructor <;> linarith

/-- A note whose sample is in range and whose gains are between 0 and 1. -/
def Fair (e : Note K) : Prop := |e.sample| ≤ 1 ∧ 0 ≤ e.gain ∧ e.gain ≤ 1 ∧ 0 ≤ e.master ∧ e.master ≤ 1

/-- What a note adds. -/
def Note.value (e : Note K) : K := e.sample * e.gain * e.master

theorem fair_value (e : Note K) (h : Fair e) : |e.value| ≤ 1 := by
  obtain ⟨h1, h2, h3, h4, h5⟩ := h
  unfold Note.value
  rw [abs_mul, abs_mul, abs_of_nonneg h2, abs_of_nonneg h4]
  calc |e.sample| * e.gain * e.master ≤ 1 * 1 * 1 := by
        apply mul_le_mul (mul_le_mul h1 h3 h2 (by norm_num)) h5 h4 (by norm_num)
    _ = 1 := by norm_num

theorem fold_open (th : K) (h0 : 0 ≤ th) (h1 : th < 1) (l : List (Note K)) (hf : ∀ e ∈ l, Fair e) (acc : K) (ha : |acc| < 1) :
    |l.foldl (fun acc e => (exact th).mix e.sample e.gain e.master acc) acc| < 1 := by
  induction l generalizing acc with
  | nil => exact ha
  | cons e l ih =>
    refine ih (fun x hx => hf x (List.mem_cons_of_mem _ hx)) _ ?_
    exact compress_open th acc e.value h0 h1 ha (fair_value e (hf e List.mem_cons_self))

/-- **C33.** Whatever was supplied with gains between 0 and 1, every mixed sample lies strictly inside full scale. -/
theorem heard_in_range (th : K) (h0 : 0 ≤ th) (h1 : th < 1) (notes : List (Note K)) (hf : ∀ e ∈ notes, Fair e) (ch p : Nat) :
    |heard (exact th) notes ch p| < 1 := by
  unfold heard
  apply fold_open th h0 h1
  · intro e he; exact hf e (List.mem_of_mem_filter he)
  · show |(0 : K)| < 1; simp

/-- The notes for a position. -/
def notesAt (notes : List (Note K)) (ch p : Nat) : List (Note K) := notes.filter fun e => e.ch = ch ∧ e.pos = p

theorem fold_sum (th : K) (l : List (Note K)) (acc : K) (h : |acc| + (l.map fun e => |e.value|).sum ≤ th) :
    l.foldl (fun acc e => (exact th).mix e.sample e.gain e.master acc) acc = acc + (l.map Note.value).sum := by
  induction l generalizing acc with
  | nil => simp
  | cons e l ih =>
    simp only [List.map_cons, List.sum_cons] at h
    have hn : 0 ≤ (l.map fun e => |e.value|).sum := List.sum_nonneg (by
      intro x hx; rw [List.mem_map] at hx; obtain ⟨y, _, rfl⟩ := hx; exact abs_nonneg _)
    have ht : |acc + e.value| ≤ |acc| + |e.value| := abs_add_le _ _
    have hm : (exact th).mix e.sample e.gain e.master acc = acc + e.value :=
      compress_id th _ (by show |acc + e.value| ≤ th; linarith)
    rw [List.foldl_cons, hm, ih _ (by linarith), List.map_cons, List.sum_cons]
    ring

/-- **C31, the sum.** While the absolute values for a position add up to no more than the threshold, the mix is their sum. -/
theorem heard_is_sum (th : K) (notes : List (Note K)) (ch p : Nat) (h : ((notesAt notes ch p).map fun e => |e.value|).sum ≤ th) :
    heard (exact th) notes ch p = ((notesAt notes ch p).map Note.value).sum := by
  have := fold_sum th (notesAt notes ch p) 0 (by rw [abs_zero, zero_add]; exact h)
  rw [zero_add] at this
  exact this

/-- **C31, order of arrival.** Below the threshold the order in which the samples arrived does not matter. -/
theorem heard_order (th : K) (a b : List (Note K)) (hp : a.Perm b) (ch p : Nat)
    (h : ((notesAt a ch p).map fun e => |e.value|).sum ≤ th) : heard (exact th) a ch p = heard (exact th) b ch p := by
  have hq : (notesAt a ch p).Perm (notesAt b ch p) := hp.filter _
  rw [heard_is_sum th a ch p h, heard_is_sum th b ch p (by rw [← (hq.map fun e => |e.value|).sum_eq]; exact h)]
  exact (hq.map Note.value).sum_eq

end Field

/-- Above the threshold it does: the compressor acts after every sample. -/
theorem order_matters :
    heard (exact (3 / 5 : ℚ)) [⟨0, 0, 1, 1, 1⟩, ⟨0, 0, 1, 1, 1⟩, ⟨0, 0, -1, 1, 1⟩] 0 0 ≠
    heard (exact (3 / 5 : ℚ)) [⟨0, 0, 1, 1, 1⟩, ⟨0, 0, -1, 1, 1⟩, ⟨0, 0, 1, 1, 1⟩] 0 0 := by
  simp only [heard, exact, compress]
  norm_num

example : |heard (exact (3 / 5 : ℚ)) [⟨0, 0, 1, 1, 1⟩, ⟨0, 0, 1, 1, 1⟩] 0 0| < 1 :=
  heard_in_range _ (by norm_num) (by norm_num) _ (by
    intro e he
    simp only [List.mem_cons, List.not_mem_nil, or_false, or_self] at he
    subst he
    simp only [Fair]
    norm_num) 0 0

example : heard (exact (3 / 5 : ℚ)) [⟨0, 0, 1 / 5, 1, 1⟩, ⟨0, 1, 1, 1, 1⟩, ⟨0, 0, 1 / 2, 1 / 2, 1⟩] 0 0 = 9 / 20 := by
  rw [heard_is_sum]
  · simp [notesAt, Note.value]; norm_num
  · simp only [notesAt, Note.value]; norm_num [abs_of_pos]

/-- A master gain above 1, which `changeMasterVolumeEvent` accepts, takes the mix out of range. -/
theorem master_above_one_overflows : 1 < heard (exact (3 / 5 : ℚ)) [⟨0, 0, 1, 1, 3⟩] 0 0 := by
  simp only [heard, exact, compress]
  norm_num

/-! ## 16 bit samples -/

/-- The 16 bit two's complement number with the given bits. -/
def short (n : Nat) : Int := if n % 65536 < 32768 then (n % 65536 : Nat) else (n % 65536 : Nat) - 65536

/-- AudioMixer.cpp:233-236: two bytes to a number. -/
def toReal (b0 b1 : UInt8) : ℚ := (short (b0.toNat ||| b1.toNat <<< 8) : ℚ) / 32768

/-- Conversion of a real number to an integer: towards zero. -/
def trunc (x : ℚ) : Int := if 0 ≤ x then ⌊x⌋ else ⌈x⌉

/-- AudioMixer.cpp:253-255: a number to two bytes; `none` when the number does not fit 16 bits, which is undefined. -/
def toBytes (x : ℚ) : Option (UInt8 × UInt8) :=
  let v := trunc (x * 32768)
  if -32768 ≤ v ∧ v ≤ 32767 then some (UInt8.ofNat (v % 256).toNat, UInt8.ofNat (v / 256 % 256).toNat) else none

theorem trunc_int (n : Int) : trunc n = n := by
  unfold trunc; split <;> simp

theorem or_shift (a b : Nat) (ha : a < 256) : a ||| b <<< 8 = b * 256 + a := by
  rw [Nat.or_comm, ← Nat.shiftLeft_add_eq_or_of_lt (show a < 2 ^ 8 by omega), Nat.shiftLeft_eq]

/-- **C33, 16 bit round trip.** -/
theorem bytes_roundtrip (b0 b1 : UInt8) : toBytes (toReal b0 b1) = some (b0, b1) := by
  unfold toBytes toReal
  rw [div_mul_cancel₀ _ (by norm_num), trunc_int]
  have h0 := b0.toNat_lt
  have h1 := b1.toNat_lt
  rw [or_shift _ _ h0]
  have e0 : UInt8.ofNat b0.toNat = b0 := UInt8.ofNat_toNat
  have e1 : UInt8.ofNat b1.toNat = b1 := UInt8.ofNat_toNat
  have hmod : (b1.toNat * 256 + b0.toNat) % 65536 = b1.toNat * 256 + b0.toNat := Nat.mod_eq_of_lt (by omega)
  unfold short
  rw [hmod]
  split
  · rw [if_pos (by omega)]
    have a : ((b1.toNat * 256 + b0.toNat : Nat) % 256 : Int).toNat = b0.toNat := by omega
    have b : ((b1.toNat * 256 + b0.toNat : Nat) / 256 % 256 : Int).toNat = b1.toNat := by omega
    rw [a, b, e0, e1]
  · rw [if_pos (by omega)]
    have a : (((b1.toNat * 256 + b0.toNat : Nat) - 65536 : Int) % 256).toNat = b0.toNat := by omega
    have b : (((b1.toNat * 256 + b0.toNat : Nat) - 65536 : Int) / 256 % 256).toNat = b1.toNat := by omega
    rw [a, b, e0, e1]

/-- **C33, no overflow.** A mixed sample below full scale converts to a 16 bit number of the same sign. -/
theorem conversion_fits (x : ℚ) (h : |x| < 1) : (toBytes x).isSome ∧ |trunc (x * 32768)| ≤ 32767 := by
  obtain ⟨h1, h2⟩ := abs_lt.1 h
  have key : -32767 ≤ trunc (x * 32768) ∧ trunc (x * 32768) ≤ 32767 := by
    unfold trunc
    split
    · rename_i hx
      constructor
      · have : 0 ≤ ⌊x * 32768⌋ := Int.floor_nonneg.2 hx
        omega
      · have : ⌊x * 32768⌋ < 32768 := Int.floor_lt.2 (by push_cast; linarith)
        omega
    · rename_i hx
      constructor
      · have : -32768 < ⌈x * 32768⌉ := Int.lt_ceil.2 (by push_cast; linarith)
        omega
      · have : ⌈x * 32768⌉ ≤ 0 := Int.ceil_le.2 (by push_cast; linarith)
        omega
  refine ⟨?_, abs_le.2 key⟩
  unfold toBytes
  rw [if_pos (by omega)]; rfl

/-- Exactly full scale does not fit. -/
theorem full_scale_overflows : toBytes 1 = none := by
  unfold toBytes
  rw [show trunc (1 * 32768) = 32768 by rw [one_mul]; exact trunc_int 32768]
  decide

end Lms.AudioMixer
