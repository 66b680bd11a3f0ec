import Verif.Common.Mem

/-!
# Bits of byte strings
-/

namespace Lms

/-- The bits of a byte, most significant first. -/
def byteBits (b : UInt8) : List Bool := (List.range 8).map fun i => b.toNat / 2 ^ (7 - i) % 2 == 1

/-- The bits of a byte string. -/
def bitsOf (d : Bytes) : List Bool := d.flatMap byteBits

/-- The number written in binary, most significant bit first. -/
def natOf (l : List Bool) : Nat := l.foldl (fun a b => 2 * a + b.toNat) 0

theorem byteBits_length (b : UInt8) : (byteBits b).length = 8 := by simp [byteBits]

theorem bitsOf_cons (b : UInt8) (d : Bytes) : bitsOf (b :: d) = byteBits b ++ bitsOf d := by simp [bitsOf]

theorem bitsOf_append (a b : Bytes) : bitsOf (a ++ b) = bitsOf a ++ bitsOf b := by simp [bitsOf]

theorem bitsOf_length (d : Bytes) : (bitsOf d).length = 8 * d.length := by
  induction d with
  | nil => rfl
  | cons b d ih => rw [bitsOf_cons, List.length_append, byteBits_length, ih, List.length_cons]; omega

theorem byte_all (P : UInt8 → Prop) (h : ∀ n : Fin 256, P (UInt8.ofNat n.val)) (b : UInt8) : P b := by
  have := h ⟨b.toNat, b.toNat_lt⟩
  simpa using this

theorem foldl_natOf (l : List Bool) (a : Nat) :
    l.foldl (fun a b => 2 * a + b.toNat) a = a * 2 ^ l.length + natOf l := by
  induction l generalizing a with
  | nil => simp [natOf]
  | cons b l ih =>
    unfold natOf
    simp only [List.foldl_cons, List.length_cons, Nat.mul_zero, Nat.zero_add]
    rw [ih (2 * a + b.toNat), ih b.toNat, Nat.pow_succ, Nat.add_mul, Nat.mul_comm 2 a, Nat.mul_assoc a, Nat.mul_comm 2,
      Nat.add_assoc]

theorem natOf_nil : natOf [] = 0 := rfl

theorem natOf_cons (b : Bool) (l : List Bool) : natOf (b :: l) = b.toNat * 2 ^ l.length + natOf l := by
  show l.foldl (fun a b => 2 * a + b.toNat) (2 * 0 + b.toNat) = _
  rw [foldl_natOf]; simp

theorem natOf_append (l m : List Bool) : natOf (l ++ m) = natOf l * 2 ^ m.length + natOf m := by
  unfold natOf
  rw [List.foldl_append, foldl_natOf]
  rfl

theorem natOf_lt (l : List Bool) : natOf l < 2 ^ l.length := by
  induction l with
  | nil => simp [natOf]
  | cons b l ih =>
    rw [natOf_cons, List.length_cons, Nat.pow_succ]
    cases b <;> simp <;> omega

/-- `n` bits of a number, most significant first. -/
def bitsN : Nat → Nat → List Bool
  | 0, _ => []
  | n + 1, v => (v / 2 ^ n % 2 == 1) :: bitsN n v

theorem bitsN_length (n v : Nat) : (bitsN n v).length = n := by
  induction n with
  | zero => rfl
  | succ n ih => rw [bitsN, List.length_cons, ih]

theorem natOf_bitsN (n v : Nat) : natOf (bitsN n v) = v % 2 ^ n := by
  induction n with
  | zero => simp [bitsN, natOf, Nat.mod_one]
  | succ n ih =>
    rw [bitsN, natOf_cons, bitsN_length, ih, Nat.pow_succ, Nat.mod_mul]
    have : v / 2 ^ n % 2 = 0 ∨ v / 2 ^ n % 2 = 1 := by omega
    rcases this with h | h <;> simp [h] <;> omega

theorem natOf_bitsN_of_lt {n v : Nat} (h : v < 2 ^ n) : natOf (bitsN n v) = v := by
  rw [natOf_bitsN, Nat.mod_eq_of_lt h]

theorem byteBits_eq (b : UInt8) : byteBits b = bitsN 8 b.toNat := by
  simp [byteBits, bitsN, List.range, List.range.loop]

end Lms
