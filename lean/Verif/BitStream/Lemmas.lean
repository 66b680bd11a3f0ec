import Verif.BitStream.Model

/-!
# Lemmas about the bit stream
-/

namespace Lms.BitStream

open Lms

/-- The bit position. -/
def pos (b : BS) : Nat := 8 * b.p + (8 - b.left)

structure Ok (b : BS) : Prop where
  one : 1 ≤ b.left
  eight : b.left ≤ 8

/-- The bits not yet read. -/
def rest (b : BS) : List Bool := (bitsOf b.buf).drop (pos b)

theorem ok_init (d : Bytes) : Ok (init d) ∧ pos (init d) = 0 ∧ rest (init d) = bitsOf d :=
  ⟨⟨by simp [init], by simp [init]⟩, rfl, rfl⟩

theorem advance_spec (b : BS) (h : Ok b) : Ok (advance b (b.left - 1)) ∧ pos (advance b (b.left - 1)) = pos b + 1 ∧
    (advance b (b.left - 1)).buf = b.buf := by
  obtain ⟨h1, h2⟩ := h
  unfold advance
  split
  · refine ⟨⟨by simp, by simp⟩, ?_, rfl⟩
    unfold pos; simp only; omega
  · refine ⟨⟨by simp only; omega, by simp only; omega⟩, ?_, rfl⟩
    unfold pos; simp only; omega

theorem byteBits_get (b : UInt8) (k : Nat) (h : k < 8) : (byteBits b)[k]? = some (b.toNat / 2 ^ (7 - k) % 2 == 1) := by
  simp [byteBits, h]

theorem bitsOf_get (d : Bytes) (p k : Nat) (h : k < 8) :
    (bitsOf d)[8 * p + k]? = d[p]?.map fun x => x.toNat / 2 ^ (7 - k) % 2 == 1 := by
  induction d generalizing p with
  | nil => simp [bitsOf]
  | cons b d ih =>
    rw [bitsOf_cons]
    cases p with
    | zero =>
      rw [List.getElem?_append_left (by rw [byteBits_length]; omega)]
      rw [show 8 * 0 + k = k by omega, byteBits_get _ _ h]
      rfl
    | succ p =>
      rw [List.getElem?_append_right (by rw [byteBits_length]; omega), byteBits_length,
        show 8 * (p + 1) + k - 8 = 8 * p + k by omega, ih]
      rfl

theorem eof_iff (b : BS) (h : Ok b) : eof b = false ↔ rest b ≠ [] := by
  obtain ⟨h1, h2⟩ := h
  unfold eof rest
  rw [decide_eq_false_iff_not, ← List.length_pos_iff, List.length_drop, bitsOf_length]
  unfold pos
  omega

theorem readU1_spec (b : BS) (h : Ok b) : (readU1 b).1 = ((rest b).headD false).toNat ∧ rest (readU1 b).2 = (rest b).tail ∧
    Ok (readU1 b).2 ∧ pos (readU1 b).2 = pos b + 1 ∧ (readU1 b).2.buf = b.buf := by
  obtain ⟨a1, a2, a3⟩ := advance_spec b h
  have hst : (readU1 b).2 = advance b (b.left - 1) := rfl
  rw [hst]
  refine ⟨?_, ?_, a1, a2, a3⟩
  · have hg := bitsOf_get b.buf b.p (8 - b.left) (by have := h.one; omega)
    have hh : (rest b).head? = (bitsOf b.buf)[8 * b.p + (8 - b.left)]? := by
      unfold rest pos; rw [List.head?_drop]
    rw [hg] at hh
    have e7 : 7 - (8 - b.left) = b.left - 1 := by have := h.one; have := h.eight; omega
    rw [e7] at hh
    have hD : (rest b).headD false = ((rest b).head?).getD false := by cases rest b <;> rfl
    rw [hD, hh]
    unfold readU1
    simp only
    cases b.buf[b.p]? with
    | none => rfl
    | some x =>
      simp only [Option.map_some, Option.getD_some]
      have : x.toNat / 2 ^ (b.left - 1) % 2 = 0 ∨ x.toNat / 2 ^ (b.left - 1) % 2 = 1 := by omega
      rcases this with e | e <;> rw [e] <;> rfl
  · unfold rest
    rw [a2, a3, List.tail_drop]

/-- The first `n` bits, zeros after the end. -/
def takeZ (n : Nat) (l : List Bool) : List Bool := (l ++ List.replicate n false).take n

theorem takeZ_length (n : Nat) (l : List Bool) : (takeZ n l).length = n := by
  simp [takeZ]

theorem takeZ_succ (n : Nat) (l : List Bool) : takeZ (n + 1) l = l.headD false :: takeZ n l.tail := by
  cases l with
  | nil => simp [takeZ, List.replicate_succ]
  | cons b l =>
    simp only [takeZ, List.cons_append, List.take_succ_cons, List.headD_cons, List.tail_cons]
    congr 1
    rw [List.replicate_succ', ← List.append_assoc, List.take_append_of_le_length]
    simp

theorem takeZ_append (l xs : List Bool) : takeZ l.length (l ++ xs) = l := by
  unfold takeZ
  rw [List.append_assoc, List.take_left']
  rfl

theorem or_shift (a x m : Nat) (h : x < 2) : (a * 2 ^ (m + 1)) ||| (x <<< m) = (2 * a + x) * 2 ^ m := by
  have h1 : x <<< m < 2 ^ (m + 1) := by
    rw [Nat.shiftLeft_eq, Nat.pow_succ, Nat.mul_comm]
    exact Nat.mul_lt_mul_of_pos_left h (Nat.two_pow_pos m)
  have := Nat.two_pow_add_eq_or_of_lt h1 a
  rw [Nat.mul_comm a, ← this, Nat.shiftLeft_eq, Nat.pow_succ, Nat.add_mul, Nat.mul_comm (2 ^ m) 2, Nat.mul_right_comm 2]

theorem bool_lt (b : Bool) : b.toNat < 2 := by cases b <;> decide

theorem readLoop_spec (m : Nat) (b : BS) (a : Nat) (h : Ok b) :
    (readLoop m b (a * 2 ^ m)).1 = a * 2 ^ m + natOf (takeZ m (rest b)) ∧
    rest (readLoop m b (a * 2 ^ m)).2 = (rest b).drop m ∧ Ok (readLoop m b (a * 2 ^ m)).2 ∧
    pos (readLoop m b (a * 2 ^ m)).2 = pos b + m ∧ (readLoop m b (a * 2 ^ m)).2.buf = b.buf := by
  induction m generalizing b a with
  | zero => exact ⟨by simp [readLoop, takeZ, natOf], by simp [readLoop], h, rfl, rfl⟩
  | succ m ih =>
    obtain ⟨r1, r2, r3, r4, r5⟩ := readU1_spec b h
    have e : readLoop (m + 1) b (a * 2 ^ (m + 1)) =
        readLoop m (readU1 b).2 ((2 * a + ((rest b).headD false).toNat) * 2 ^ m) := by
      show readLoop m (readU1 b).2 ((a * 2 ^ (m + 1)) ||| ((readU1 b).1 <<< m)) = _
      rw [r1, or_shift _ _ _ (bool_lt _)]
    obtain ⟨i1, i2, i3, i4, i5⟩ := ih (readU1 b).2 (2 * a + ((rest b).headD false).toNat) r3
    rw [e]
    refine ⟨?_, ?_, i3, ?_, ?_⟩
    · rw [i1, takeZ_succ, natOf_cons, takeZ_length, r2, Nat.pow_succ, Nat.add_mul, Nat.add_assoc, Nat.mul_comm 2 a,
        Nat.mul_assoc a, Nat.mul_comm 2]
    · rw [i2, r2, List.drop_tail]
    · rw [i4, r4]; omega
    · rw [i5, r5]

theorem read_spec (n : Nat) (b : BS) (h : Ok b) :
    (readLoop n b 0).1 = natOf (takeZ n (rest b)) ∧ rest (readLoop n b 0).2 = (rest b).drop n ∧ Ok (readLoop n b 0).2 ∧
    pos (readLoop n b 0).2 = pos b + n ∧ (readLoop n b 0).2.buf = b.buf := by
  have := readLoop_spec n b 0 h
  simpa using this

theorem bs_ext {a b : BS} (ha : Ok a) (hb : Ok b) (hbuf : a.buf = b.buf) (hp : pos a = pos b) : a = b := by
  obtain ⟨a1, a2, a3⟩ := a
  obtain ⟨b1, b2, b3⟩ := b
  obtain ⟨x1, x2⟩ := ha
  obtain ⟨y1, y2⟩ := hb
  unfold pos at hp
  simp only at *
  have : a2 = b2 := by omega
  have : a3 = b3 := by omega
  subst_vars; rfl

/-- The fast path reads what the slow one does. -/
theorem readU8_eq (b : BS) (h : Ok b) : readU8 b = readLoop 8 b 0 := by
  unfold readU8
  cases hx : b.buf[b.p]? with
  | none => rfl
  | some x =>
    simp only
    split
    · rename_i h8
      obtain ⟨r1, r2, r3, r4, r5⟩ := read_spec 8 b h
      have hpos : pos b = 8 * b.p := by unfold pos; omega
      apply Prod.ext
      · rw [r1]
        have hr : rest b = byteBits x ++ (bitsOf b.buf).drop (8 * b.p + 8) := by
          unfold rest
          rw [hpos]
          have hlt : b.p < b.buf.length := (List.getElem?_eq_some_iff.1 hx).1
          have hs : b.buf = b.buf.take b.p ++ x :: b.buf.drop (b.p + 1) := by
            rw [← (List.getElem?_eq_some_iff.1 hx).2, List.getElem_cons_drop, List.take_append_drop]
          have hl : (bitsOf (b.buf.take b.p)).length = 8 * b.p := by rw [bitsOf_length, List.length_take]; omega
          have hb : bitsOf b.buf = bitsOf (b.buf.take b.p) ++ (byteBits x ++ bitsOf (b.buf.drop (b.p + 1))) := by
            rw [← bitsOf_cons, ← bitsOf_append, ← hs]
          obtain ⟨A, hA⟩ : ∃ A, bitsOf (b.buf.take b.p) = A := ⟨_, rfl⟩
          obtain ⟨C, hC⟩ : ∃ C, bitsOf (b.buf.drop (b.p + 1)) = C := ⟨_, rfl⟩
          rw [hA] at hl
          rw [hb, hA, hC, List.drop_left' hl, ← List.drop_drop, List.drop_left' hl, List.drop_left' (byteBits_length x)]
        have ht : takeZ 8 (rest b) = byteBits x := by
          rw [hr]
          have := takeZ_append (byteBits x) ((bitsOf b.buf).drop (8 * b.p + 8))
          rwa [byteBits_length] at this
        rw [ht, byteBits_eq, natOf_bitsN_of_lt x.toNat_lt]
      · apply bs_ext _ r3
        · exact r5.symm
        · rw [r4]; unfold pos; simp only; omega
        · exact ⟨by simp only; omega, by simp only; omega⟩
    · rfl

/-! ## Writing -/

theorem set_byte : ∀ (n : Fin 256) (l : Fin 8) (v : Fin 2),
    byteBits ((UInt8.ofNat n.val &&& ~~~((1 : UInt8) <<< UInt8.ofNat l.val)) ||| (UInt8.ofNat v.val <<< UInt8.ofNat l.val)) =
      (byteBits (UInt8.ofNat n.val)).set (7 - l.val) (v.val == 1) := by decide +kernel

theorem bitsOf_set (d : Bytes) (p k : Nat) (x y : UInt8) (v : Bool) (hk : k < 8) (hx : d[p]? = some x)
    (h : byteBits y = (byteBits x).set k v) : bitsOf (d.set p y) = (bitsOf d).set (8 * p + k) v := by
  induction d generalizing p with
  | nil => simp at hx
  | cons b d ih =>
    cases p with
    | zero =>
      simp only [List.getElem?_cons_zero, Option.some.injEq] at hx
      subst hx
      rw [List.set_cons_zero, bitsOf_cons, bitsOf_cons, h, List.set_append_left _ _ (by rw [byteBits_length]; omega)]
      congr 2; omega
    | succ p =>
      rw [List.getElem?_cons_succ] at hx
      rw [List.set_cons_succ, bitsOf_cons, bitsOf_cons, ih p hx,
        List.set_append_right _ _ (by rw [byteBits_length]; omega), byteBits_length]
      congr 2; omega

theorem writeU1_spec (b : BS) (v : Nat) (h : Ok b) (hp : pos b < 8 * b.buf.length) :
    bitsOf (writeU1 b v).buf = (bitsOf b.buf).set (pos b) (v % 2 == 1) ∧ Ok (writeU1 b v) ∧
    pos (writeU1 b v) = pos b + 1 ∧ (writeU1 b v).buf.length = b.buf.length := by
  have hlt : b.p < b.buf.length := by unfold pos at hp; omega
  obtain ⟨x, hx⟩ : ∃ x, b.buf[b.p]? = some x := ⟨b.buf[b.p], List.getElem?_eq_getElem hlt⟩
  obtain ⟨h1, h2⟩ := h
  obtain ⟨y, hy⟩ : ∃ y, y = (x &&& ~~~((1 : UInt8) <<< UInt8.ofNat (b.left - 1))) |||
    (UInt8.ofNat (v % 2) <<< UInt8.ofNat (b.left - 1)) := ⟨_, rfl⟩
  have e : writeU1 b v = advance { b with buf := b.buf.set b.p y } (b.left - 1) := by
    unfold writeU1
    simp only [hx, hy]
  obtain ⟨a1, a2, a3⟩ := advance_spec { b with buf := b.buf.set b.p y } ⟨h1, h2⟩
  simp only at a1 a2 a3
  rw [e]
  refine ⟨?_, a1, a2, ?_⟩
  · rw [a3]
    have hs := set_byte ⟨x.toNat, x.toNat_lt⟩ ⟨b.left - 1, by omega⟩ ⟨v % 2, by omega⟩
    simp only [UInt8.ofNat_toNat] at hs
    rw [← hy] at hs
    have := bitsOf_set b.buf b.p (7 - (b.left - 1)) x y (v % 2 == 1) (by omega) hx hs
    rw [this]
    congr 1
    unfold pos; omega
  · rw [a3, List.length_set]

theorem writeLoop_spec (n : Nat) (b : BS) (v : Nat) (h : Ok b) (hp : pos b + n ≤ 8 * b.buf.length) :
    bitsOf (writeLoop n b v).buf = (bitsOf b.buf).take (pos b) ++ bitsN n v ++ (bitsOf b.buf).drop (pos b + n) ∧
    Ok (writeLoop n b v) ∧ pos (writeLoop n b v) = pos b + n ∧ (writeLoop n b v).buf.length = b.buf.length := by
  induction n generalizing b with
  | zero => exact ⟨by simp [writeLoop, bitsN], h, rfl, rfl⟩
  | succ n ih =>
    obtain ⟨w1, w2, w3, w4⟩ := writeU1_spec b (v / 2 ^ n % 2) h (by omega)
    obtain ⟨i1, i2, i3, i4⟩ := ih (writeU1 b (v / 2 ^ n % 2)) w2 (by rw [w3, w4]; omega)
    have e : writeLoop (n + 1) b v = writeLoop n (writeU1 b (v / 2 ^ n % 2)) v := rfl
    rw [e]
    refine ⟨?_, i2, by rw [i3, w3]; omega, by rw [i4, w4]⟩
    rw [i1, w1, w3, Nat.mod_mod]
    have hl : pos b < (bitsOf b.buf).length := by rw [bitsOf_length]; omega
    have t : ((bitsOf b.buf).set (pos b) (v / 2 ^ n % 2 == 1)).take (pos b + 1) =
        (bitsOf b.buf).take (pos b) ++ [v / 2 ^ n % 2 == 1] := by
      rw [List.take_add_one, List.take_set_of_le (by omega)]
      simp [hl]
    rw [t, List.drop_set_of_lt (by omega)]
    rw [show pos b + 1 + n = pos b + (n + 1) by omega]
    simp only [bitsN, List.append_assoc, List.singleton_append, List.cons_append]
    rfl

theorem eof_false (b : BS) (h : Ok b) (hp : pos b < 8 * b.buf.length) : eof b = false := by
  obtain ⟨h1, h2⟩ := h
  unfold eof
  rw [decide_eq_false_iff_not]
  unfold pos at hp
  omega

end Lms.BitStream
