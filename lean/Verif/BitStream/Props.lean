import Verif.BitStream.Lemmas

/-!
# C26: the bit reader inverts the bit writer
-/

namespace Lms.BitStream

open Lms

/-! ## Specification: codes (H.264 9.1) -/

/-- The unsigned Exp-Golomb code of `v`: as many zeros as `v + 1` has bits after its first, then `v + 1`. -/
def ueBits (v : Nat) : List Bool := List.replicate (Nat.log2 (v + 1)) false ++ bitsN (Nat.log2 (v + 1) + 1) (v + 1)

/-- The mapping of signed values: 0, 1, -1, 2, -2, … -/
def seIndex (v : Int) : Nat := if v ≤ 0 then 2 * v.natAbs else 2 * v.natAbs - 1

inductive Field where
  | u (n v : Nat)
  | u8 (v : Nat)
  | ue (v : Nat)
  | se (v : Int)
  | bytes (d : Bytes)
  deriving DecidableEq

def Field.enc : Field → List Bool
  | .u n v => bitsN n v
  | .u8 v => bitsN 8 v
  | .ue v => ueBits v
  | .se v => ueBits (seIndex v)
  | .bytes d => bitsOf d

/-- What can be written at bit position `p`. -/
def Field.Fits (p : Nat) : Field → Prop
  | .u n v => n ≤ 32 ∧ v < 2 ^ n
  | .u8 v => v < 256
  | .ue v => v + 1 < 2 ^ 16
  | .se v => seIndex v + 1 < 2 ^ 16
  | .bytes _ => p % 8 = 0

def FitsAll : Nat → List Field → Prop
  | _, [] => True
  | p, f :: fs => f.Fits p ∧ FitsAll (p + f.enc.length) fs

def encAll (fs : List Field) : List Bool := fs.flatMap Field.enc

/-! ## The operations under test -/

def write (b : BS) : Field → Outcome BS
  | .u n v => writeU b n v
  | .u8 v => .ok (writeU8 b v)
  | .ue v => writeUe b v
  | .se v => writeSe b v
  | .bytes d => .ok (writeBytes b d)

def writeAll : BS → List Field → Outcome BS
  | b, [] => .ok b
  | b, f :: fs => (write b f).bind fun b' => writeAll b' fs

/-- Read a field of the same kind (and width). -/
def read (b : BS) : Field → Outcome (Field × BS)
  | .u n _ => (readU b n).bind fun r => .ok (.u n r.1, r.2)
  | .u8 _ => .ok (.u8 (readU8 b).1, (readU8 b).2)
  | .ue _ => (readUe b).bind fun r => .ok (.ue r.1, r.2)
  | .se _ => (readSe b).bind fun r => .ok (.se r.1, r.2)
  | .bytes d => .ok (.bytes (readBytes b d.length).1, (readBytes b d.length).2)

def readAll : BS → List Field → Outcome (List Field × BS)
  | b, [] => .ok ([], b)
  | b, f :: fs => (read b f).bind fun r => (readAll r.2 fs).bind fun r' => .ok (r.1 :: r'.1, r'.2)

/-! ## Reading codes -/

theorem log2_bounds (w : Nat) (h : 0 < w) : 2 ^ Nat.log2 w ≤ w ∧ w < 2 ^ (Nat.log2 w + 1) :=
  ⟨Nat.log2_self_le (by omega), Nat.lt_log2_self⟩

theorem ue_split (v : Nat) : ueBits v = List.replicate (Nat.log2 (v + 1)) false ++ true :: bitsN (Nat.log2 (v + 1)) (v + 1) := by
  obtain ⟨h1, h2⟩ := log2_bounds (v + 1) (by omega)
  have h3 : (v + 1) / 2 ^ Nat.log2 (v + 1) = 1 := by
    have hp := Nat.two_pow_pos (Nat.log2 (v + 1))
    rw [Nat.pow_succ] at h2
    apply Nat.le_antisymm
    · exact Nat.lt_succ_iff.1 ((Nat.div_lt_iff_lt_mul hp).2 (by rw [Nat.mul_comm]; exact h2))
    · exact (Nat.le_div_iff_mul_le hp).2 (by omega)
  unfold ueBits
  rw [bitsN, h3]
  rfl

theorem ueBits_length (v : Nat) : (ueBits v).length = 2 * Nat.log2 (v + 1) + 1 := by
  unfold ueBits
  rw [List.length_append, List.length_replicate, bitsN_length]; omega

theorem ueLoop_spec (k : Nat) (ys : List Bool) (m i : Nat) (b : BS) (h : Ok b) (hk : k ≤ m)
    (hr : rest b = List.replicate k false ++ true :: ys) :
    (ueLoop m b i).1 = i + k ∧ rest (ueLoop m b i).2 = ys ∧ Ok (ueLoop m b i).2 ∧
      pos (ueLoop m b i).2 = pos b + k + 1 ∧ (ueLoop m b i).2.buf = b.buf := by
  induction k generalizing m i b with
  | zero =>
    obtain ⟨r1, r2, r3, r4, r5⟩ := readU1_spec b h
    rw [hr] at r1 r2
    have hx : (readU1 b).1 = 1 := r1
    have e : ueLoop m b i = (i, (readU1 b).2) := by
      cases m with
      | zero => rfl
      | succ m =>
        show (if (readU1 b).1 = 0 ∧ eof (readU1 b).2 = false then _ else _) = _
        rw [hx]; rfl
    rw [e]
    exact ⟨rfl, r2, r3, by rw [r4], r5⟩
  | succ k ih =>
    obtain ⟨r1, r2, r3, r4, r5⟩ := readU1_spec b h
    rw [hr, List.replicate_succ, List.cons_append] at r1 r2
    have hx : (readU1 b).1 = 0 := r1
    obtain ⟨m, rfl⟩ : ∃ m', m = m' + 1 := ⟨m - 1, by omega⟩
    have r2' : rest (readU1 b).2 = List.replicate k false ++ true :: ys := r2
    have he : eof (readU1 b).2 = false := by
      rw [eof_iff _ r3, r2']; simp
    have e : ueLoop (m + 1) b i = ueLoop m (readU1 b).2 (i + 1) := by
      show (if (readU1 b).1 = 0 ∧ eof (readU1 b).2 = false then _ else _) = _
      rw [if_pos ⟨hx, he⟩]; rfl
    rw [e]
    obtain ⟨i1, i2, i3, i4, i5⟩ := ih m (i + 1) (readU1 b).2 r3 (by omega) r2'
    exact ⟨by rw [i1]; omega, i2, i3, by rw [i4, r4]; omega, by rw [i5, r5]⟩

theorem readUe_spec (v : Nat) (xs : List Bool) (b : BS) (h : Ok b) (hv : v + 1 < 2 ^ 31) (hr : rest b = ueBits v ++ xs) :
    ∃ b', readUe b = .ok (v, b') ∧ rest b' = xs ∧ Ok b' ∧ pos b' = pos b + (ueBits v).length ∧ b'.buf = b.buf := by
  obtain ⟨l1, l2⟩ := log2_bounds (v + 1) (by omega)
  obtain ⟨k, hk⟩ : ∃ k, Nat.log2 (v + 1) = k := ⟨_, rfl⟩
  have hlen := ueBits_length v
  rw [ue_split, hk, List.append_assoc, List.cons_append] at hr
  rw [hk] at l1 l2 hlen
  have hk31 : k < 31 := by
    apply Decidable.byContradiction
    intro hc
    have := Nat.pow_le_pow_right (n := 2) (by omega) (Nat.le_of_not_lt hc)
    omega
  obtain ⟨u1, u2, u3, u4, u5⟩ := ueLoop_spec k _ 32 0 b h (by omega) hr
  obtain ⟨r1, r2, r3, r4, r5⟩ := read_spec k (ueLoop 32 b 0).2 u3
  refine ⟨(readLoop k (ueLoop 32 b 0).2 0).2, ?_, ?_, r3, ?_, ?_⟩
  · unfold readUe readU
    simp only [u1, Nat.zero_add]
    rw [if_neg (by omega), Outcome.bind_ok]
    rw [if_neg (by omega), r1, u2]
    have ht := takeZ_append (bitsN k (v + 1)) xs
    rw [bitsN_length] at ht
    rw [ht, natOf_bitsN]
    have hmod : (v + 1) % 2 ^ k = v + 1 - 2 ^ k := by
      rw [Nat.mod_eq_sub_mod l1, Nat.mod_eq_of_lt (by rw [Nat.pow_succ] at l2; omega)]
    have := Nat.two_pow_pos k
    congr 2
    omega
  · rw [r2, u2]
    have := List.drop_left' (l₂ := xs) (bitsN_length k (v + 1))
    exact this
  · rw [r4, u4, hlen]; omega
  · rw [r5, u5]

theorem se_back (v : Int) :
    (if seIndex v % 2 = 1 then (((seIndex v + 1) / 2 : Nat) : Int) else -((seIndex v / 2 : Nat) : Int)) = v := by
  unfold seIndex
  split <;> split <;> omega

theorem readSe_spec (v : Int) (xs : List Bool) (b : BS) (h : Ok b) (hv : seIndex v + 1 < 2 ^ 31)
    (hr : rest b = ueBits (seIndex v) ++ xs) :
    ∃ b', readSe b = .ok (v, b') ∧ rest b' = xs ∧ Ok b' ∧ pos b' = pos b + (ueBits (seIndex v)).length ∧ b'.buf = b.buf := by
  obtain ⟨b', h1, h2, h3, h4, h5⟩ := readUe_spec (seIndex v) xs b h hv hr
  refine ⟨b', ?_, h2, h3, h4, h5⟩
  unfold readSe
  rw [h1, Outcome.bind_ok, se_back]

/-- What a reader makes of any field in standard form -- including values the writer cannot write: unsigned codes up to
`2^31 - 2`. -/
def Field.Readable (p : Nat) : Field → Prop
  | .u n v => n ≤ 32 ∧ v < 2 ^ n
  | .u8 v => v < 256
  | .ue v => v + 1 < 2 ^ 31
  | .se v => seIndex v + 1 < 2 ^ 31
  | .bytes _ => p % 8 = 0

def ReadableAll : Nat → List Field → Prop
  | _, [] => True
  | p, f :: fs => f.Readable p ∧ ReadableAll (p + f.enc.length) fs

theorem bitsOf_inj : ∀ (a b : Bytes), bitsOf a = bitsOf b → a = b
  | [], [], _ => rfl
  | [], y :: b, h => by
    have := congrArg List.length h
    rw [bitsOf_length, bitsOf_length] at this
    simp at this
  | x :: a, [], h => by
    have := congrArg List.length h
    rw [bitsOf_length, bitsOf_length] at this
    simp at this
  | x :: a, y :: b, h => by
    rw [bitsOf_cons, bitsOf_cons] at h
    obtain ⟨h1, h2⟩ := List.append_inj h (by rw [byteBits_length, byteBits_length])
    have hx : x = y := by
      rw [byteBits_eq, byteBits_eq] at h1
      have := congrArg natOf h1
      rw [natOf_bitsN_of_lt x.toNat_lt, natOf_bitsN_of_lt y.toNat_lt] at this
      exact UInt8.toNat_inj.1 this
    rw [hx, bitsOf_inj a b h2]

theorem bitsOf_drop (d : Bytes) (p : Nat) : bitsOf (d.drop p) = (bitsOf d).drop (8 * p) := by
  induction d generalizing p with
  | nil => simp [bitsOf]
  | cons b d ih =>
    cases p with
    | zero => rfl
    | succ p =>
      rw [List.drop_succ_cons, ih, bitsOf_cons, show 8 * (p + 1) = 8 + 8 * p by omega, ← List.drop_drop,
        List.drop_left' (byteBits_length b)]

theorem bitsOf_take (d : Bytes) (p : Nat) : bitsOf (d.take p) = (bitsOf d).take (8 * p) := by
  induction d generalizing p with
  | nil => simp [bitsOf]
  | cons b d ih =>
    cases p with
    | zero => rfl
    | succ p =>
      rw [List.take_succ_cons, bitsOf_cons, ih, bitsOf_cons, show 8 * (p + 1) = 8 + 8 * p by omega]
      have := List.take_length_add_append (l₁ := byteBits b) (l₂ := bitsOf d) (8 * p)
      rw [byteBits_length] at this
      exact this.symm

theorem read_field (f : Field) (xs : List Bool) (b : BS) (h : Ok b) (hf : f.Readable (pos b)) (hr : rest b = f.enc ++ xs) :
    ∃ b', read b f = .ok (f, b') ∧ rest b' = xs ∧ Ok b' ∧ pos b' = pos b + f.enc.length ∧ b'.buf = b.buf := by
  have loop : ∀ n v, v < 2 ^ n → rest b = bitsN n v ++ xs →
      ∃ b', readLoop n b 0 = (v, b') ∧ rest b' = xs ∧ Ok b' ∧ pos b' = pos b + n ∧ b'.buf = b.buf := by
    intro n v hv hr
    obtain ⟨r1, r2, r3, r4, r5⟩ := read_spec n b h
    refine ⟨(readLoop n b 0).2, ?_, ?_, r3, r4, r5⟩
    · apply Prod.ext
      · rw [r1, hr]
        have ht := takeZ_append (bitsN n v) xs
        rw [bitsN_length] at ht
        rw [ht, natOf_bitsN_of_lt hv]
      · rfl
    · rw [r2, hr, List.drop_left' (bitsN_length n v)]
  cases f with
  | u n v =>
    obtain ⟨b', e, h2, h3, h4, h5⟩ := loop n v hf.2 hr
    refine ⟨b', ?_, h2, h3, by rw [h4]; simp [Field.enc, bitsN_length], h5⟩
    simp only [read, readU]
    rw [if_neg (by have := hf.1; omega), e]; rfl
  | u8 v =>
    obtain ⟨b', e, h2, h3, h4, h5⟩ := loop 8 v hf hr
    refine ⟨b', ?_, h2, h3, by rw [h4]; simp [Field.enc, bitsN_length], h5⟩
    simp only [read]
    rw [readU8_eq b h, e]
  | ue v =>
    obtain ⟨b', e, h2, h3, h4, h5⟩ := readUe_spec v xs b h hf hr
    exact ⟨b', by simp only [read, e, Outcome.bind_ok], h2, h3, h4, h5⟩
  | se v =>
    obtain ⟨b', e, h2, h3, h4, h5⟩ := readSe_spec v xs b h hf hr
    exact ⟨b', by simp only [read, e, Outcome.bind_ok], h2, h3, h4, h5⟩
  | bytes d =>
    have h8 : b.left = 8 := by
      have := h.one; have := h.eight
      simp only [Field.Readable, pos] at hf
      omega
    have hpos : pos b = 8 * b.p := by unfold pos; omega
    have hr' : (bitsOf b.buf).drop (8 * b.p) = bitsOf d ++ xs := by rw [← hpos]; exact hr
    refine ⟨{ b with p := b.p + d.length }, ?_, ?_, ⟨h.one, h.eight⟩, ?_, rfl⟩
    · simp only [read, readBytes]
      have : (b.buf.drop b.p).take d.length = d := by
        apply bitsOf_inj
        rw [bitsOf_take, bitsOf_drop, hr', List.take_left' (bitsOf_length d)]
      simp only [this]
    · unfold rest
      have : pos { b with p := b.p + d.length } = 8 * b.p + 8 * d.length := by unfold pos; simp only; omega
      rw [this, ← List.drop_drop]
      show ((bitsOf b.buf).drop (8 * b.p)).drop (8 * d.length) = xs
      rw [hr', List.drop_left' (bitsOf_length d)]
    · show pos { b with p := b.p + d.length } = pos b + (bitsOf d).length
      rw [bitsOf_length]; unfold pos; simp only; omega

/-- **C26, reader.**  A reader standing before any sequence of fields in standard form returns exactly these fields and
stops right behind them. -/
theorem fields_are_read (fs : List Field) (xs : List Bool) (b : BS) (h : Ok b) (hf : ReadableAll (pos b) fs)
    (hr : rest b = encAll fs ++ xs) :
    ∃ b', readAll b fs = .ok (fs, b') ∧ rest b' = xs ∧ Ok b' ∧ pos b' = pos b + (encAll fs).length ∧ b'.buf = b.buf := by
  induction fs generalizing b with
  | nil => exact ⟨b, rfl, hr, h, by simp [encAll], rfl⟩
  | cons f fs ih =>
    have e : encAll (f :: fs) = f.enc ++ encAll fs := by simp [encAll]
    rw [e, List.append_assoc] at hr
    obtain ⟨b1, r1, r2, r3, r4, r5⟩ := read_field f _ b h hf.1 hr
    obtain ⟨b2, q1, q2, q3, q4, q5⟩ := ih b1 r3 (by rw [r4]; exact hf.2) r2
    refine ⟨b2, ?_, q2, q3, ?_, by rw [q5, r5]⟩
    · simp only [readAll, r1, Outcome.bind_ok, q1]
    · rw [q4, r4, e, List.length_append]; omega

/-! ## Writing codes -/

theorem lenTable_spec : ∀ n : Fin 256, n.val ≠ 0 → lenTable n.val = Nat.log2 n.val + 1 := by decide +kernel

theorem log2_div (w k : Nat) (h : 2 ^ k ≤ w) : Nat.log2 w = k + Nat.log2 (w / 2 ^ k) := by
  have hp := Nat.two_pow_pos k
  have hq : 0 < w / 2 ^ k := Nat.div_pos h hp
  obtain ⟨a1, a2⟩ := log2_bounds (w / 2 ^ k) hq
  have hw : 0 < w := by omega
  apply Nat.le_antisymm
  · apply Nat.lt_succ_iff.1
    rw [Nat.log2_lt (by omega)]
    rw [show (k + Nat.log2 (w / 2 ^ k)).succ = (Nat.log2 (w / 2 ^ k) + 1) + k by omega, Nat.pow_add]
    exact (Nat.div_lt_iff_lt_mul hp).1 a2
  · rw [Nat.le_log2 (by omega), Nat.add_comm, Nat.pow_add]
    exact (Nat.le_div_iff_mul_le hp).1 a1

theorem ueLen_spec (w : Nat) (h0 : 0 < w) (h : w < 2 ^ 32) : ueLen w = Nat.log2 w + 1 := by
  have tab : ∀ n, 0 < n → n < 256 → lenTable n = Nat.log2 n + 1 := fun n h1 h2 => lenTable_spec ⟨n, h2⟩ (by simp; omega)
  unfold ueLen
  split
  · rw [tab _ (by omega) (by omega), log2_div w 24 (by omega)]; omega
  · split
    · rw [tab _ (by omega) (by omega), log2_div w 16 (by omega)]; omega
    · split
      · rw [tab _ (by omega) (by omega), log2_div w 8 (by omega)]; omega
      · exact tab w h0 (by omega)

theorem bitsN_pad (a b v : Nat) (h : v < 2 ^ b) : bitsN (a + b) v = List.replicate a false ++ bitsN b v := by
  induction a with
  | zero => simp
  | succ a ih =>
    have : v / 2 ^ (a + b) = 0 := Nat.div_eq_of_lt (Nat.lt_of_lt_of_le h (Nat.pow_le_pow_right (by omega) (by omega)))
    rw [show a + 1 + b = (a + b) + 1 by omega, bitsN, this, ih, List.replicate_succ]
    rfl

theorem ueBits_eq (v : Nat) : ueBits v = bitsN (2 * Nat.log2 (v + 1) + 1) (v + 1) := by
  unfold ueBits
  rw [← bitsN_pad _ _ _ (log2_bounds (v + 1) (by omega)).2]
  congr 1; omega

theorem log2_small (v : Nat) (h : v + 1 < 2 ^ 16) : Nat.log2 (v + 1) < 16 := (Nat.log2_lt (by omega)).2 h

/-- What writing a field does. -/
structure Wrote (b b' : BS) (l : List Bool) : Prop where
  ok : Ok b'
  pos : pos b' = pos b + l.length
  len : b'.buf.length = b.buf.length
  bits : bitsOf b'.buf = (bitsOf b.buf).take (BitStream.pos b) ++ l ++ (bitsOf b.buf).drop (BitStream.pos b + l.length)

theorem wrote_loop (n v : Nat) (b : BS) (h : Ok b) (hp : pos b + n ≤ 8 * b.buf.length) :
    Wrote b (writeLoop n b v) (bitsN n v) := by
  obtain ⟨w1, w2, w3, w4⟩ := writeLoop_spec n b v h hp
  exact ⟨w2, by rw [bitsN_length]; exact w3, w4, by rw [bitsN_length]; exact w1⟩

theorem writeUe_spec (v : Nat) (b : BS) (h : Ok b) (hv : v + 1 < 2 ^ 16) (hp : pos b + (ueBits v).length ≤ 8 * b.buf.length) :
    ∃ b', writeUe b v = .ok b' ∧ Wrote b b' (ueBits v) := by
  unfold writeUe
  split
  · rename_i h0
    subst h0
    refine ⟨_, rfl, ?_⟩
    have e : writeU1 b 1 = writeLoop 1 b 1 := rfl
    have e2 : ueBits 0 = bitsN 1 1 := by decide
    rw [e, e2]
    rw [e2, bitsN_length] at hp
    exact wrote_loop 1 1 b h hp
  · rename_i h0
    have hm : (v + 1) % 2 ^ 32 = v + 1 := Nat.mod_eq_of_lt (by omega)
    simp only [hm]
    rw [ueLen_spec (v + 1) (by omega) (by omega)]
    have hl := log2_small v hv
    refine ⟨writeLoop (2 * Nat.log2 (v + 1) + 1) b (v + 1), ?_, ?_⟩
    · unfold writeU
      rw [if_neg (by omega)]
      congr 2
    · rw [ueBits_eq]
      rw [ueBits_length] at hp
      exact wrote_loop _ _ b h hp

theorem seIndex_pos (v : Int) : (v ≤ 0 → seIndex v = (-v * 2).toNat) ∧ (0 < v → seIndex v = (v * 2 - 1).toNat) := by
  unfold seIndex
  constructor
  · intro h; rw [if_pos h]; omega
  · intro h; rw [if_neg (by omega)]; omega

theorem write_field (f : Field) (b : BS) (h : Ok b) (hf : f.Fits (pos b)) (hp : pos b + f.enc.length ≤ 8 * b.buf.length) :
    ∃ b', write b f = .ok b' ∧ Wrote b b' f.enc := by
  cases f with
  | u n v =>
    refine ⟨writeLoop n b v, ?_, ?_⟩
    · simp only [write, writeU]; rw [if_neg (by have := hf.1; omega)]
    · simp only [Field.enc, bitsN_length] at hp ⊢
      exact wrote_loop n v b h hp
  | u8 v =>
    simp only [Field.enc, bitsN_length] at hp ⊢
    refine ⟨writeU8 b v, rfl, ?_⟩
    unfold writeU8
    split
    · rename_i hc
      have hpos : pos b = 8 * b.p := by unfold pos; omega
      have hlt : b.p < b.buf.length := by omega
      have hsp : b.buf.set b.p (UInt8.ofNat v) = b.buf.take b.p ++ UInt8.ofNat v :: b.buf.drop (b.p + 1) := by
        rw [List.set_eq_take_append_cons_drop, if_pos hlt]
      refine ⟨⟨h.one, h.eight⟩, ?_, by simp, ?_⟩
      · rw [bitsN_length]; unfold pos; simp only; omega
      · show bitsOf (b.buf.set b.p (UInt8.ofNat v)) = _
        rw [hsp, bitsOf_append, bitsOf_cons, bitsOf_take, bitsOf_drop, hpos, bitsN_length, byteBits_eq,
          List.append_assoc, show 8 * (b.p + 1) = 8 * b.p + 8 by omega]
        congr 3
        simp only [Field.Fits] at hf
        simp; omega
    · exact wrote_loop 8 v b h hp
  | ue v => exact writeUe_spec v b h hf hp
  | se v =>
    obtain ⟨s1, s2⟩ := seIndex_pos v
    simp only [Field.Fits] at hf
    obtain ⟨b', e1, e2⟩ := writeUe_spec (seIndex v) b h hf hp
    refine ⟨b', ?_, e2⟩
    simp only [write, writeSe]
    split
    · rename_i hv
      rw [if_neg (by have := s1 hv; omega), ← s1 hv]; exact e1
    · rename_i hv
      rw [if_neg (by have := s2 (by omega); omega), ← s2 (by omega)]; exact e1
  | bytes d =>
    simp only [Field.enc, bitsOf_length] at hp ⊢
    have h8 : b.left = 8 := by
      have := h.one; have := h.eight
      simp only [Field.Fits, pos] at hf
      omega
    have hpos : pos b = 8 * b.p := by unfold pos; omega
    have hfit : b.p + d.length ≤ b.buf.length := by omega
    refine ⟨writeBytes b d, rfl, ?_⟩
    have hmin : min d.length (b.buf.length - b.p) = d.length := by omega
    have e : writeBytes b d = { b with buf := b.buf.take b.p ++ d ++ b.buf.drop (b.p + d.length), p := b.p + d.length } := by
      unfold writeBytes
      simp only [hmin, List.take_length]
    rw [e]
    refine ⟨⟨h.one, h.eight⟩, ?_, ?_, ?_⟩
    · rw [bitsOf_length]; unfold pos; simp only; omega
    · simp; omega
    · show bitsOf (b.buf.take b.p ++ d ++ b.buf.drop (b.p + d.length)) = _
      rw [bitsOf_append, bitsOf_append, bitsOf_take, bitsOf_drop, hpos, bitsOf_length,
        show 8 * (b.p + d.length) = 8 * b.p + 8 * d.length by omega]

theorem wrote_trans {a b c : BS} {l m : List Bool} (h1 : Wrote a b l) (h2 : Wrote b c m)
    (hp : pos a + l.length + m.length ≤ 8 * a.buf.length) : Wrote a c (l ++ m) := by
  refine ⟨h2.ok, by rw [h2.pos, h1.pos, List.length_append]; omega, by rw [h2.len, h1.len], ?_⟩
  rw [h2.bits, h1.pos, h1.bits]
  have hA : ((bitsOf a.buf).take (pos a)).length = pos a := by rw [List.length_take, bitsOf_length]; omega
  obtain ⟨A, hAe⟩ : ∃ A, (bitsOf a.buf).take (pos a) = A := ⟨_, rfl⟩
  rw [hAe] at hA ⊢
  have hAl : (A ++ l).length = pos a + l.length := by rw [List.length_append, hA]
  rw [List.take_left' hAl, ← List.drop_drop, List.drop_left' hAl, List.drop_drop, List.length_append]
  simp only [List.append_assoc]
  rw [show pos a + l.length + m.length = pos a + (l.length + m.length) by omega]

/-- **C26, writer.**  Writing fields into a buffer with room for them puts their standard codes at the current position and
changes nothing else. -/
theorem fields_are_written (fs : List Field) (b : BS) (h : Ok b) (hf : FitsAll (pos b) fs)
    (hp : pos b + (encAll fs).length ≤ 8 * b.buf.length) :
    ∃ b', writeAll b fs = .ok b' ∧ Wrote b b' (encAll fs) := by
  induction fs generalizing b with
  | nil => exact ⟨b, rfl, h, by simp [encAll], rfl, by simp [encAll]⟩
  | cons f fs ih =>
    have e : encAll (f :: fs) = f.enc ++ encAll fs := by simp [encAll]
    rw [e, List.length_append] at hp
    obtain ⟨b1, w1, w2⟩ := write_field f b h hf.1 (by omega)
    obtain ⟨b2, q1, q2⟩ := ih b1 w2.ok (by rw [w2.pos]; exact hf.2) (by rw [w2.pos, w2.len]; omega)
    refine ⟨b2, ?_, ?_⟩
    · simp only [writeAll, w1, Outcome.bind_ok, q1]
    · rw [e]; exact wrote_trans w2 q2 (by omega)

theorem fits_readable : ∀ (fs : List Field) (p : Nat), FitsAll p fs → ReadableAll p fs
  | [], _, _ => trivial
  | f :: fs, p, h => by
    refine ⟨?_, fits_readable fs _ h.2⟩
    have := h.1
    cases f <;> simp only [Field.Fits, Field.Readable] at this ⊢ <;> first | exact this | omega

/-- **C26.**  Write any fields that fit into any buffer with room at any bit position; a reader at that position of the
resulting buffer reads back exactly these fields and ends at the writer's position. -/
theorem read_inverts_write (fs : List Field) (b : BS) (h : Ok b) (hf : FitsAll (pos b) fs)
    (hp : pos b + (encAll fs).length ≤ 8 * b.buf.length) :
    ∃ b' c, writeAll b fs = .ok b' ∧ readAll ⟨b'.buf, b.p, b.left⟩ fs = .ok (fs, c) ∧ c = b' ∧
      (bitsOf b'.buf).take (pos b) = (bitsOf b.buf).take (pos b) ∧
      (bitsOf b'.buf).drop (pos b') = (bitsOf b.buf).drop (pos b') := by
  obtain ⟨b', w1, w2⟩ := fields_are_written fs b h hf hp
  have hA : ((bitsOf b.buf).take (pos b)).length = pos b := by rw [List.length_take, bitsOf_length]; omega
  have hb := w2.bits
  obtain ⟨A, hAe⟩ : ∃ A, (bitsOf b.buf).take (pos b) = A := ⟨_, rfl⟩
  rw [hAe] at hA hb
  have hr : rest (⟨b'.buf, b.p, b.left⟩ : BS) = encAll fs ++ (bitsOf b.buf).drop (pos b + (encAll fs).length) := by
    show (bitsOf b'.buf).drop (pos b) = _
    rw [hb, List.append_assoc, List.drop_left' hA]
  obtain ⟨c, r1, r2, r3, r4, r5⟩ := fields_are_read fs _ ⟨b'.buf, b.p, b.left⟩ ⟨h.one, h.eight⟩ (fits_readable fs _ hf) hr
  have hc : c = b' := bs_ext r3 w2.ok r5 (by rw [r4, w2.pos]; rfl)
  refine ⟨b', c, w1, r1, hc, ?_, ?_⟩
  · rw [hAe, hb, List.append_assoc, List.take_left' hA]
  · rw [w2.pos, hb]
    exact List.drop_left' (by rw [List.length_append, hA])

/-- **C26, end of buffer.**  Reading any number of bits at any place gives the remaining bits followed by zeros. -/
theorem zeros_after_the_end (b : BS) (h : Ok b) (n : Nat) (hn : n ≤ 32) :
    ∃ b', readU b n = .ok (natOf ((rest b ++ List.replicate n false).take n), b') ∧ pos b' = pos b + n ∧ b'.buf = b.buf := by
  obtain ⟨r1, r2, r3, r4, r5⟩ := read_spec n b h
  refine ⟨(readLoop n b 0).2, ?_, r4, r5⟩
  unfold readU
  rw [if_neg (by omega)]
  congr 1
  exact Prod.ext r1 rfl

/-- Recorded exception: an unsigned code from 65535 on cannot be written (the value is shifted by 32 bits or more). -/
theorem large_codes_cannot_be_written (b : BS) (v : Nat) (h : v + 1 < 2 ^ 32) : writeUe b v = .ub ↔ 2 ^ 16 ≤ v + 1 := by
  unfold writeUe
  split
  · rename_i h0; subst h0; simp
  · have hm : (v + 1) % 2 ^ 32 = v + 1 := Nat.mod_eq_of_lt h
    simp only [hm]
    rw [ueLen_spec (v + 1) (by omega) h]
    unfold writeU
    have hl : 16 ≤ Nat.log2 (v + 1) ↔ 2 ^ 16 ≤ v + 1 := Nat.le_log2 (by omega)
    split
    · rename_i hc
      simp only [true_iff]
      exact hl.1 (by omega)
    · rename_i hc
      simp only [reduceCtorEq, false_iff]
      intro h16
      have := hl.2 h16
      omega

/-- Recorded exception: 31 zero bits before the next one bit make the reader overflow. -/
theorem long_codes_overflow (b : BS) (h : Ok b) (xs : List Bool) (k : Nat) (hk : k = 31 ∨ k = 32)
    (hr : rest b = List.replicate k false ++ true :: xs) : readUe b = .ub := by
  obtain ⟨u1, u2, u3, u4, u5⟩ := ueLoop_spec k _ 32 0 b h (by omega) hr
  unfold readUe readU
  simp only [u1, Nat.zero_add]
  rw [if_neg (by omega), Outcome.bind_ok, if_pos (by omega)]

/-- Recorded exception: the largest 32-bit value is written as a single zero bit, which is no code at all. -/
theorem largest_code_is_lost (b : BS) : writeUe b (2 ^ 32 - 1) = .ok (writeU1 b 0) := rfl

/-- Recorded exception: copying raw bytes in ignores the position within the byte; a field written just before is
overwritten. -/
theorem byte_copies_ignore_the_bit_position :
    ∃ b', writeAll (init (List.replicate 4 0)) [.u 3 5, .bytes [7]] = .ok b' ∧ b'.buf = [7, 0, 0, 0] ∧
      bitsOf b'.buf ≠ encAll [.u 3 5, .bytes [7]] ++ List.replicate 21 false := by
  exact ⟨⟨[7, 0, 0, 0], 1, 5⟩, rfl, rfl, by decide +kernel⟩

/-- Skipping bits ends where reading them would. -/
theorem skip_is_read (n : Nat) (b : BS) : skipU n b = (readLoop n b 0).2 := by
  have gen : ∀ (n : Nat) (b : BS) (r : Nat), skipU n b = (readLoop n b r).2 := by
    intro n
    induction n with
    | zero => intro b r; rfl
    | succ n ih => intro b r; exact ih _ _
  exact gen n b 0

/-- Peeking returns what reading would. -/
theorem peek_is_read (b : BS) (h : Ok b) (n : Nat) (hn : n ≤ 32) :
    nextBits b n = (readU b n).bind fun r => .ok r.1 := by
  have hr : rest (⟨b.buf.drop b.p, 0, b.left⟩ : BS) = rest b := by
    unfold rest pos
    simp only
    rw [bitsOf_drop, List.drop_drop]
    congr 1
    omega
  obtain ⟨r1, _⟩ := read_spec n (⟨b.buf.drop b.p, 0, b.left⟩ : BS) ⟨h.one, h.eight⟩
  obtain ⟨q1, _⟩ := read_spec n b h
  unfold nextBits readU
  rw [if_neg (by omega), if_neg (by omega), Outcome.bind_ok, Outcome.bind_ok, r1, q1, hr]

/-- Fields of all kinds at an odd position. -/
example : let b : BS := ⟨List.replicate 12 0xAA, 1, 5⟩
    Ok b ∧ FitsAll (pos b) [.u 5 19, .ue 37, .u 2 2, .se (-7), .u8 200, .u 32 4000000000] ∧
      pos b + (encAll [.u 5 19, .ue 37, .u 2 2, .se (-7), .u8 200, .u 32 4000000000]).length ≤ 8 * b.buf.length := by
  refine ⟨⟨by decide, by decide⟩, ?_, by decide +kernel⟩
  simp [FitsAll, Field.Fits, seIndex]

example : (match writeAll (init (List.replicate 6 0)) [.u 3 5, .ue 4, .bytes [7, 8]] with
    | .ok b => b.buf | _ => []) = [0xA5, 7, 8, 0, 0, 0] := by decide +kernel

/-- **C26 (recorded).** A signed code is written for values between the halves of the range of `int` only: beyond, doubling the value is
undefined. -/
theorem se_out_of_range (b : BS) (v : Int) (h : v ≤ -2 ^ 30 ∨ 2 ^ 30 ≤ v) : writeSe b v = .ub := by
  unfold writeSe
  by_cases hv : v ≤ 0
  · rw [if_pos hv, if_pos (by omega)]
  · rw [if_neg hv, if_pos (by omega)]

example : (-1073741824 : Int) ≤ -2 ^ 30 := by decide

/-- **C26.** Skipping moves on by exactly as many bits, or bytes, and changes nothing else; for bytes it is reading them without looking. -/
theorem skipping_moves (n : Nat) : ∀ b : BS, Ok b →
    (Ok (skipU n b) ∧ pos (skipU n b) = pos b + n ∧ (skipU n b).buf = b.buf) ∧
    Ok (skipBytes b n) ∧ pos (skipBytes b n) = pos b + 8 * n ∧ (skipBytes b n).buf = b.buf ∧ skipBytes b n = (readBytes b n).2 := by
  intro b hb
  refine ⟨?_, ⟨hb.one, hb.eight⟩, ?_, rfl, rfl⟩
  · induction n generalizing b with
    | zero => exact ⟨hb, rfl, rfl⟩
    | succ n ih =>
      obtain ⟨h1, h2, -⟩ := advance_spec b hb
      obtain ⟨i1, i2, i3⟩ := ih (advance b (b.left - 1)) h1
      refine ⟨i1, ?_, ?_⟩
      · rw [skipU, i2, h2]; omega
      · rw [skipU, i3]; unfold advance; split <;> rfl
  · have := hb.1
    have := hb.2
    unfold pos skipBytes
    simp only
    omega

example : Ok ⟨[1, 2, 3], 0, 3⟩ ∧ skipU 4 ⟨[1, 2, 3], 0, 3⟩ = ⟨[1, 2, 3], 1, 7⟩ ∧ skipBytes ⟨[1, 2, 3], 0, 3⟩ 2 = ⟨[1, 2, 3], 2, 3⟩ := by
  exact ⟨⟨by decide, by decide⟩, rfl, rfl⟩

end Lms.BitStream
