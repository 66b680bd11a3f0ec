import Verif.Sources.Model

/-!
# C39, C54: access units regrouped, start codes put in front
-/

namespace Lms.Sources

/-! ## Specification -/

/-- A delimiter: the five low bits of the first byte say 9. -/
def IsDelimiter (u : Bytes) : Prop := ∃ b r, u = b :: r ∧ b.toNat % 32 = 9

/-- An access unit in the stream's format: Annex B, or lengths of four bytes in front. -/
def unitBytes (annexB : Bool) (us : List Bytes) : Bytes :=
  us.flatMap fun u => (if annexB then [0, 0, 0, 1] else be32 u.length) ++ u

/-- A reader of the length format. -/
def readLengths : Nat → Bytes → List Bytes
  | 0, _ => []
  | fuel + 1, b => if b = [] then [] else (b.drop 4).take (rdBE (b.take 4)) :: readLengths fuel (b.drop (4 + rdBE (b.take 4)))

/-- Units, and the delimiter that ends them. -/
structure Au where
  units : List Nal
  delim : Nal

/-- An access unit without delimiters inside, which fits in the room with the delimiter behind it. -/
structure Au.Fits (annexB : Bool) (max : Nat) (a : Au) : Prop where
  inner : ∀ u ∈ a.units, ¬ IsDelimiter u.data
  closing : IsDelimiter a.delim.data
  fits : (unitBytes annexB (a.units.map (·.data))).length + 4 + a.delim.data.length ≤ max

/-! ## Theorems -/

theorem nalType_nine (u : Bytes) : nalType u = 9 ↔ IsDelimiter u := by
  cases u with
  | nil => simp [nalType, IsDelimiter]
  | cons b r =>
    simp only [nalType, IsDelimiter]
    constructor
    · intro h; exact ⟨b, r, rfl, h⟩
    · rintro ⟨b', r', e, h⟩; simp only [List.cons.injEq] at e; rw [e.1]; exact h

theorem sample_unit (annexB : Bool) (max : Nat) (acc : Bytes) (u : Nal) (h : ¬ IsDelimiter u.data) (hf : acc.length + 4 + u.data.length ≤ max) :
    sample annexB max acc u = .ok (acc ++ unitBytes annexB [u.data], none) := by
  unfold sample
  have ht : u.data.take (max - acc.length - 4) = u.data := List.take_of_length_le (by omega)
  rw [if_neg (by omega)]
  simp only [ht]
  rw [if_neg]
  · unfold unitBytes preamble; simp
  · rintro (h9 | h9)
    · exact h ((nalType_nine _).1 h9)
    · omega

theorem sample_delim (annexB : Bool) (max : Nat) (acc : Bytes) (u : Nal) (h : IsDelimiter u.data) (hf : acc.length + 4 + u.data.length ≤ max) :
    sample annexB max acc u = .ok ([], some ⟨acc, 0, u.time⟩) := by
  unfold sample
  have ht : u.data.take (max - acc.length - 4) = u.data := List.take_of_length_le (by omega)
  rw [if_neg (by omega)]
  simp only [ht]
  rw [if_pos (Or.inl ((nalType_nine _).2 h)), show u.data.length - (max - acc.length - 4) = 0 by omega]

theorem unitBytes_cons (annexB : Bool) (u : Bytes) (us : List Bytes) : unitBytes annexB (u :: us) = unitBytes annexB [u] ++ unitBytes annexB us := by
  unfold unitBytes; simp

theorem unit_length (annexB : Bool) (u : Bytes) : (unitBytes annexB [u]).length = 4 + u.length := by
  unfold unitBytes; cases annexB <;> simp <;> omega

theorem sampler_units (annexB : Bool) (max : Nat → Nat) (j : Nat) (us : List Nal) : ∀ (acc : Bytes) (rest : List Nal),
    (∀ u ∈ us, ¬ IsDelimiter u.data) → acc.length + (unitBytes annexB (us.map (·.data))).length ≤ max j →
    sampler annexB max j acc (us ++ rest) = sampler annexB max j (acc ++ unitBytes annexB (us.map (·.data))) rest := by
  induction us with
  | nil => intro acc rest _ _; simp [unitBytes]
  | cons u us ih =>
    intro acc rest hd hf
    rw [List.map_cons, unitBytes_cons, List.length_append, unit_length] at hf
    rw [List.cons_append, sampler, sample_unit annexB _ acc u (hd u (by simp)) (by omega), Outcome.bind_ok]
    show sampler annexB max j (acc ++ unitBytes annexB [u.data]) (us ++ rest) = _
    rw [ih _ rest (fun x hx => hd x (by simp [hx])) (by rw [List.length_append, unit_length]; omega), List.map_cons,
      unitBytes_cons annexB u.data (us.map (·.data)), List.append_assoc]

/-- **C39.** Units delimited by access unit delimiters come out one access unit at a time, complete and in order, each unit behind its
prefix; the delimiter ending it is not part of it, but gives it its time. -/
theorem sampler_regroups (annexB : Bool) (max : Nat → Nat) (aus : List Au) : ∀ j, (∀ i (a : Au), aus[i]? = some a → a.Fits annexB (max (j + i))) →
    sampler annexB max j [] (aus.flatMap fun a => a.units ++ [a.delim]) =
      .ok (aus.map fun a => ⟨unitBytes annexB (a.units.map (·.data)), 0, a.delim.time⟩, []) := by
  induction aus with
  | nil => intro j _; rfl
  | cons a aus ih =>
    intro j hf
    have h0 : a.Fits annexB (max j) := hf 0 a rfl
    have hs := h0.fits
    rw [List.flatMap_cons, List.append_assoc, sampler_units annexB max j a.units [] _ h0.inner (by simp; omega)]
    rw [List.nil_append, List.cons_append, List.nil_append, sampler, sample_delim annexB _ _ _ h0.closing (by omega), Outcome.bind_ok]
    show (sampler annexB max (j + 1) [] _).bind _ = _
    rw [ih (j + 1) (fun i a' h => by rw [show j + 1 + i = j + (i + 1) by omega]; exact hf (i + 1) a' (by simpa using h))]
    rfl

/-- In the length format the units are read back from the access unit. -/
theorem lengths_read_back (us : List Bytes) (h : ∀ u ∈ us, u.length < 2 ^ 32) : ∀ fuel, us.length ≤ fuel →
    readLengths fuel (unitBytes false us) = us := by
  induction us with
  | nil => intro fuel _; cases fuel <;> rfl
  | cons u us ih =>
    intro fuel hf
    cases fuel with
    | zero => simp at hf
    | succ fuel =>
      have e : unitBytes false (u :: us) = be32 u.length ++ (u ++ unitBytes false us) := by
        unfold unitBytes; simp
      have hl := be32_length u.length
      have h1 : (unitBytes false (u :: us)).take 4 = be32 u.length := by rw [e, ← hl, List.take_left]
      have h2 : rdBE (be32 u.length) = u.length := by rw [rd_be32, Nat.mod_eq_of_lt (h u (by simp))]
      have hne : unitBytes false (u :: us) ≠ [] := by
        intro h0; rw [h0] at h1; have := congrArg List.length h1; rw [hl] at this; simp at this
      rw [readLengths, if_neg hne, h1, h2]
      have h3 : (unitBytes false (u :: us)).drop 4 = u ++ unitBytes false us := by rw [e, ← hl, List.drop_left]
      rw [← List.drop_drop, h3, List.take_left, List.drop_left, ih (fun x hx => h x (by simp [hx])) fuel (by simpa using hf)]

/-- Recorded: a unit that does not fit is lost; what came before it is handed on as if it were the access unit, and what comes after
it starts another. -/
theorem large_unit_lost (annexB : Bool) (max : Nat) (acc : Bytes) (u : Nal) (h4 : acc.length + 4 ≤ max) (h : max < acc.length + 4 + u.data.length) :
    ∃ t, sample annexB max acc u = .ok ([], some ⟨acc, t, u.time⟩) ∧ 0 < t ∧ t ≤ u.data.length := by
  unfold sample
  rw [if_neg (by omega)]
  refine ⟨u.data.length - (max - acc.length - 4), ?_, by omega, by omega⟩
  simp only
  rw [if_pos (Or.inr (by omega))]

/-- Recorded: a buffer without room for the next prefix is overrun. -/
theorem full_buffer_overrun (annexB : Bool) (max : Nat) (acc : Bytes) (u : Nal) (h : max < acc.length + 4) :
    sample annexB max acc u = .ub := by unfold sample; rw [if_pos h]

/-- Such buffers are met: a unit that fills the buffer exactly, followed by anything. -/
theorem exact_fill_overruns (annexB : Bool) (u v : Nal) (h : ¬ IsDelimiter u.data) :
    sampler annexB (fun _ => 4 + u.data.length) 0 [] [u, v] = .ub := by
  rw [sampler, sample_unit annexB _ [] u h (by simp), Outcome.bind_ok]
  show sampler annexB _ 0 _ [v] = _
  rw [sampler, full_buffer_overrun _ _ _ _ (by rw [List.nil_append, unit_length]; omega)]
  rfl

/-- **C54.** A unit that fits comes out behind a start code, unchanged and whole; a longer one is cut, and what is missing is reported. -/
theorem injected (h265 : Bool) (max : Nat) (u : Bytes) (mark : Bool) (h : 4 ≤ max) :
    ∃ t m, inject h265 max u mark = .ok ([0, 0, 0, 1] ++ u.take (max - 4), t, m) ∧ (u.take (max - 4)).length + t = u.length ∧
      ([0, 0, 0, 1] ++ u.take (max - 4)).length ≤ max ∧ (t = 0 ↔ u.length + 4 ≤ max) := by
  unfold inject
  rw [if_neg (by omega)]
  refine ⟨_, _, rfl, ?_, ?_, ?_⟩
  · rw [List.length_take]; omega
  · rw [List.length_append, List.length_take]; simp; omega
  · omega

/-- The mark follows the slices. -/
theorem injected_mark (max : Nat) (b c : UInt8) (u : Bytes) (mark : Bool) (h : 6 ≤ max) :
    (∃ x t, inject false max (b :: u) mark = .ok (x, t, mark || decide (1 ≤ b.toNat % 32 ∧ b.toNat % 32 ≤ 5))) ∧
    (∃ x t, inject true max (b :: c :: u) mark = .ok (x, t, mark || decide (b.toNat / 2 % 64 ≤ 31))) := by
  obtain ⟨m, rfl⟩ : ∃ m, max = m + 6 := ⟨max - 6, by omega⟩
  unfold inject
  rw [if_neg (by omega)]
  exact ⟨⟨_, _, rfl⟩, ⟨_, _, rfl⟩⟩

/-! ## Cases -/

example : (Au.mk [⟨[0x67, 1], 5⟩, ⟨[0x65, 2, 3], 5⟩] ⟨[9, 0x10], 9⟩).Fits false 100 :=
  ⟨by
    intro u hu
    simp only [List.mem_cons, List.not_mem_nil, or_false] at hu
    rcases hu with rfl | rfl
    · rintro ⟨b, r, e, h⟩; simp only [List.cons.injEq] at e; rw [← e.1] at h; exact absurd h (by decide)
    · rintro ⟨b, r, e, h⟩; simp only [List.cons.injEq] at e; rw [← e.1] at h; exact absurd h (by decide),
   ⟨9, [0x10], rfl, rfl⟩, by decide⟩

example : sampler false (fun _ => 100) 0 [] [⟨[9, 0x10], 4⟩, ⟨[0x67, 1], 5⟩, ⟨[0x65, 2, 3], 5⟩, ⟨[9, 0x10], 9⟩] =
    .ok ([⟨[], 0, 4⟩, ⟨[0, 0, 0, 2, 0x67, 1, 0, 0, 0, 3, 0x65, 2, 3], 0, 9⟩], []) := by decide +kernel

example : inject false 10 [0x65, 1, 2] false = .ok ([0, 0, 0, 1, 0x65, 1, 2], 0, true) := by decide

end Lms.Sources
