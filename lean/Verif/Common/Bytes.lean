import Verif.Common.Mem

/-!
# Big-endian numbers in byte strings

Vocabulary shared by the models that write or read binary formats (`htonl`, `htons`, `htonl_64`).
-/

namespace Lms

def be8 (n : Nat) : Bytes := [UInt8.ofNat n]
def be16 (n : Nat) : Bytes := [UInt8.ofNat (n / 2 ^ 8), UInt8.ofNat n]
def be24 (n : Nat) : Bytes := [UInt8.ofNat (n / 2 ^ 16), UInt8.ofNat (n / 2 ^ 8), UInt8.ofNat n]
def be32 (n : Nat) : Bytes :=
  [UInt8.ofNat (n / 2 ^ 24), UInt8.ofNat (n / 2 ^ 16), UInt8.ofNat (n / 2 ^ 8), UInt8.ofNat n]
def be64 (n : Nat) : Bytes := be32 (n / 2 ^ 32) ++ be32 n

/-- The number written big-endian in a byte string. -/
def rdBE (bs : Bytes) : Nat := bs.foldl (fun a b => a * 256 + b.toNat) 0

@[simp] theorem be8_length (n : Nat) : (be8 n).length = 1 := rfl
@[simp] theorem be16_length (n : Nat) : (be16 n).length = 2 := rfl
@[simp] theorem be24_length (n : Nat) : (be24 n).length = 3 := rfl
@[simp] theorem be32_length (n : Nat) : (be32 n).length = 4 := rfl
@[simp] theorem be64_length (n : Nat) : (be64 n).length = 8 := rfl

theorem ofNat_toNat (n : Nat) : (UInt8.ofNat n).toNat = n % 256 := by
  simp [UInt8.toNat_ofNat]

theorem rd_be8 (n : Nat) : rdBE (be8 n) = n % 256 := by
  simp only [rdBE, be8, List.foldl, ofNat_toNat]; omega

theorem rd_be16 (n : Nat) : rdBE (be16 n) = n % 2 ^ 16 := by
  simp only [rdBE, be16, List.foldl, ofNat_toNat]; omega

theorem rd_be24 (n : Nat) : rdBE (be24 n) = n % 2 ^ 24 := by
  simp only [rdBE, be24, List.foldl, ofNat_toNat]; omega

theorem rd_be32 (n : Nat) : rdBE (be32 n) = n % 2 ^ 32 := by
  simp only [rdBE, be32, List.foldl, ofNat_toNat]; omega

theorem rd_be64 (n : Nat) : rdBE (be64 n) = n % 2 ^ 64 := by
  simp only [rdBE, be64, be32, List.foldl, List.cons_append, List.nil_append, ofNat_toNat]; omega

theorem rdBE_lt (bs : Bytes) : rdBE bs < 256 ^ bs.length := by
  have : ∀ (bs : Bytes) (a : Nat), bs.foldl (fun a b => a * 256 + b.toNat) a < (a + 1) * 256 ^ bs.length := by
    intro bs
    induction bs with
    | nil => intro a; simp
    | cons b bs ih =>
      intro a
      simp only [List.foldl_cons, List.length_cons]
      have h1 := ih (a * 256 + b.toNat)
      have h2 : b.toNat < 256 := b.toNat_lt
      have h3 : (a * 256 + b.toNat + 1) * 256 ^ bs.length ≤ ((a + 1) * 256) * 256 ^ bs.length :=
        Nat.mul_le_mul_right _ (by omega)
      have h4 : (a + 1) * 256 ^ (bs.length + 1) = (a + 1) * 256 * 256 ^ bs.length := by
        rw [Nat.pow_succ]; rw [Nat.mul_assoc, Nat.mul_comm 256]
      omega
  have h := this bs 0
  simpa [rdBE] using h

/-- The bytes of an ASCII text. -/
def ascii (s : String) : Bytes := s.toList.map fun c => UInt8.ofNat c.toNat

theorem take_append_self {α : Type} (a b : List α) (n : Nat) (h : a.length = n) : (a ++ b).take n = a := by
  subst h; simp

theorem drop_append_self {α : Type} (a b : List α) (n : Nat) (h : a.length = n) : (a ++ b).drop n = b := by
  subst h; simp

end Lms
