import Verif.Rbsp.Model

/-!
# C27: the raw payload is recovered
-/

namespace Lms.Rbsp

open Lms

/-! ## Specification: emulation prevention (H.264 7.4.1) -/

/-- Insert a byte 3 before each byte not above 3 that would follow two zeros; `z` is the number of zeros just emitted. -/
def protect (z : Nat) : Bytes → Bytes
  | [] => []
  | b :: d =>
    if z = 2 ∧ b ≤ 3 then 3 :: b :: protect (if b = 0 then 1 else 0) d
    else b :: protect (if b = 0 then z + 1 else 0) d

/-- The bytes after the unit's header: a payload ending in a zero gets a final 3. -/
def encapsulate (p : Bytes) : Bytes := protect 0 p ++ (if p.getLast? = some 0 then [3] else [])

/-- Zeros at the end (of the payload preceded by `z` zeros). -/
def zerosAtEnd (z : Nat) : Bytes → Nat
  | [] => z
  | b :: d => zerosAtEnd (if b = 0 then z + 1 else 0) d

/-- Patterns that may not occur after the header byte: a start code or the like, and a protection byte before a byte that
needs none. -/
def Forbidden (d : Bytes) : Prop :=
  ∃ pre post : Bytes, (∃ b, b < 3 ∧ d = pre ++ 0 :: 0 :: b :: post) ∨ (∃ b, 3 < b ∧ d = pre ++ 0 :: 0 :: 3 :: b :: post)

/-! ## Round trip -/

/-- Zeros still pending after protection. -/
def endCount (z : Nat) : Bytes → Nat
  | [] => z
  | b :: d => if z = 2 ∧ b ≤ 3 then endCount (if b = 0 then 1 else 0) d else endCount (if b = 0 then z + 1 else 0) d

theorem le3 (b : UInt8) : b ≤ 3 ↔ b < 3 ∨ b = 3 := by
  rw [UInt8.le_iff_toNat_le, UInt8.lt_iff_toNat_lt, ← UInt8.toNat_inj]
  simp only [UInt8.toNat_ofNat]
  omega

theorem not_le3 (b : UInt8) : ¬b ≤ 3 ↔ 3 < b := by
  rw [UInt8.le_iff_toNat_le, UInt8.lt_iff_toNat_lt]
  omega

theorem extract_protect (p tail : Bytes) (z room : Nat) (hz : z ≤ 2) (hr : p.length ≤ room) :
    extract room z (protect z p ++ tail) =
      (extract (room - p.length) (endCount z p) tail).map fun r => (p ++ r.1, r.2 + (protect z p).length) := by
  induction p generalizing z room with
  | nil => simp [protect, endCount]
  | cons b d ih =>
    have hr' : d.length + 1 ≤ room := by simpa using hr
    have hroom : room ≠ 0 := by omega
    have hsub : room - (b :: d).length = room - 1 - d.length := by simp; omega
    by_cases hc : z = 2 ∧ b ≤ 3
    · obtain ⟨rfl, hb⟩ := hc
      have h3 : ¬3 < b := fun h => ((not_le3 b).2 h) hb
      simp only [protect, endCount, hb, and_self, if_true, List.cons_append]
      rw [extract.eq_def]
      simp only [true_and, if_neg (show ¬(3 : UInt8) < 3 by decide), if_true, if_neg h3, if_neg hroom]
      rw [ih _ _ (by split <;> omega) (by omega), hsub]
      simp only [Option.map_map]
      rfl
    · simp only [protect, endCount, if_neg hc, List.cons_append]
      rw [extract.eq_def]
      have c1 : ¬(z = 2 ∧ b < 3) := fun h => hc ⟨h.1, (le3 b).2 (Or.inl h.2)⟩
      have c2 : ¬(z = 2 ∧ b = 3) := fun h => hc ⟨h.1, (le3 b).2 (Or.inr h.2)⟩
      simp only [if_neg c1, if_neg c2, if_neg hroom]
      have hz' : (if b = 0 then z + 1 else 0) ≤ 2 := by
        split
        · rename_i h0
          have : z ≠ 2 := fun h => hc ⟨h, by rw [h0]; decide⟩
          omega
        · omega
      rw [ih _ _ hz' (by omega), hsub]
      simp only [Option.map_map]
      rfl

theorem endCount_le (p : Bytes) (z : Nat) (hz : z ≤ 2) : endCount z p ≤ 2 := by
  induction p generalizing z with
  | nil => exact hz
  | cons b d ih =>
    unfold endCount
    split
    · exact ih _ (by split <;> omega)
    · rename_i hc
      apply ih
      split
      · rename_i h0
        have : z ≠ 2 := fun h => hc ⟨h, by rw [h0]; decide⟩
        omega
      · omega

/-- Pending zeros and zeros at the end: same parity, and none pending exactly when there are none. -/
theorem endCount_parity (p : Bytes) (z z' : Nat) (hz : z ≤ 2) (hp : z % 2 = z' % 2) (h0 : z = 0 ↔ z' = 0) :
    endCount z p % 2 = zerosAtEnd z' p % 2 ∧ (endCount z p = 0 ↔ zerosAtEnd z' p = 0) := by
  induction p generalizing z z' with
  | nil => exact ⟨hp, h0⟩
  | cons b d ih =>
    unfold endCount zerosAtEnd
    by_cases hb : b = 0
    · simp only [hb, if_true]
      split
      · exact ih _ _ (by omega) (by omega) (by omega)
      · rename_i hc
        have hz2 : z ≠ 2 := fun h => hc ⟨h, by decide⟩
        exact ih _ _ (by omega) (by omega) (by omega)
    · simp only [if_neg hb]
      split <;> exact ih _ _ (by omega) (by omega) (by omega)

theorem last_zero (p : Bytes) (z : Nat) : (p ≠ [] → (p.getLast? = some 0 ↔ zerosAtEnd z p ≠ 0)) := by
  intro hp
  induction p generalizing z with
  | nil => exact absurd rfl hp
  | cons b d ih =>
    cases d with
    | nil =>
      simp only [List.getLast?_singleton, zerosAtEnd, Option.some.injEq]
      by_cases hb : b = 0
      · simp [hb]
      · simp [hb]
    | cons c d =>
      rw [List.getLast?_cons_cons, zerosAtEnd]
      exact ih _ (by simp)

theorem last_iff (p : Bytes) : p.getLast? = some 0 ↔ zerosAtEnd 0 p ≠ 0 := by
  cases p with
  | nil => simp [zerosAtEnd]
  | cons b d => exact last_zero _ 0 (by simp)

/-- **C27.**  Whatever the header byte and whatever the payload, protecting the payload and extracting it again gives the
payload exactly when it does not end in an odd number of zeros (no legal payload does: what follows the stop bit comes in
pairs of zeros). -/
theorem payload_recovered (h : UInt8) (p : Bytes) (cap : Nat) (hc : p.length < cap) :
    ((nalToRbsp (h :: encapsulate p) cap).map (·.1) = some p) ↔ zerosAtEnd 0 p % 2 = 0 := by
  obtain ⟨e1, e2⟩ := endCount_parity p 0 0 (by omega) rfl Iff.rfl
  have e3 := endCount_le p 0 (by omega)
  have hl := last_iff p
  have hroom : cap - p.length ≠ 0 := by omega
  unfold nalToRbsp encapsulate
  rw [List.tail_cons, extract_protect p _ 0 cap (by omega) (by omega)]
  by_cases hz : zerosAtEnd 0 p = 0
  · have : ¬p.getLast? = some 0 := fun h => (hl.1 h) hz
    rw [if_neg this]
    simp [extract, hz]
  · rw [if_pos (hl.2 hz)]
    by_cases hodd : zerosAtEnd 0 p % 2 = 0
    · have h2 : endCount 0 p = 2 := by
        have : endCount 0 p ≠ 0 := fun h => hz (e2.1 h)
        omega
      simp [extract, h2, hodd]
    · have h1 : endCount 0 p = 1 := by omega
      simp [extract, h1, hodd, hroom]

/-- With room for the bytes of the unit, the payload of any legal size comes out, and the unit is consumed except for a
final 3. -/
theorem legal_payload_recovered (h : UInt8) (p : Bytes) (hz : zerosAtEnd 0 p % 2 = 0) :
    nalToRbsp (h :: encapsulate p) (h :: encapsulate p).length = some (p, (protect 0 p).length + 1) := by
  have hlen : p.length ≤ (protect 0 p).length := by
    have gen : ∀ (p : Bytes) z, p.length ≤ (protect z p).length := by
      intro p
      induction p with
      | nil => intro z; simp
      | cons b d ih =>
        intro z
        unfold protect
        split
        · have := ih (if b = 0 then 1 else 0); simp only [List.length_cons]; omega
        · have := ih (if b = 0 then z + 1 else 0); simp only [List.length_cons]; omega
    exact gen p 0
  have hcap : p.length < (h :: encapsulate p).length := by
    simp only [encapsulate, List.length_cons, List.length_append]; omega
  obtain ⟨cap, hce⟩ : ∃ c, (h :: encapsulate p).length = c := ⟨_, rfl⟩
  rw [hce] at hcap ⊢
  obtain ⟨e1, e2⟩ := endCount_parity p 0 0 (by omega) rfl Iff.rfl
  have e3 := endCount_le p 0 (by omega)
  have hl := last_iff p
  unfold nalToRbsp encapsulate
  rw [List.tail_cons, extract_protect p _ 0 cap (by omega) (by omega)]
  by_cases hz0 : zerosAtEnd 0 p = 0
  · rw [if_neg (fun h => (hl.1 h) hz0)]
    simp [extract]
  · rw [if_pos (hl.2 hz0)]
    have h2 : endCount 0 p = 2 := by
      have : endCount 0 p ≠ 0 := fun h => hz0 (e2.1 h)
      omega
    simp [extract, h2]

/-! ## Bounds and refusals -/

/-- **C27, no overflow.**  However small the output buffer, no more is stored than it holds. -/
theorem never_overflows (nal : Bytes) (cap : Nat) (p : Bytes) (n : Nat) (h : nalToRbsp nal cap = some (p, n)) : p.length ≤ cap := by
  have gen : ∀ (k : Nat) (d : Bytes), d.length ≤ k → ∀ room count p n, extract room count d = some (p, n) → p.length ≤ room := by
    intro k
    induction k with
    | zero =>
      intro d hd room count p n h
      have : d = [] := List.length_eq_zero_iff.1 (by omega)
      subst this
      simp [extract] at h
      simp [h.1]
    | succ k ih =>
      intro d hd room count p n h
      cases d with
      | nil =>
        simp [extract] at h
        simp [h.1]
      | cons b d =>
        rw [extract.eq_def] at h
        simp only at h
        split at h
        · simp at h
        · split at h
          · split at h
            · simp at h; simp [h.1]
            · rename_i n' d'
              split at h
              · simp at h
              · split at h
                · simp at h
                · rename_i hr
                  simp only [Option.map_eq_some_iff] at h
                  obtain ⟨r, hr1, hr2⟩ := h
                  have := ih d' (by simp at hd; omega) _ _ r.1 r.2 hr1
                  cases hr2
                  simp; omega
          · split at h
            · simp at h
            · rename_i hr
              simp only [Option.map_eq_some_iff] at h
              obtain ⟨r, hr1, hr2⟩ := h
              have := ih d (by simp at hd; omega) _ _ r.1 r.2 hr1
              cases hr2
              simp; omega
  unfold nalToRbsp at h
  simp only [Option.map_eq_some_iff] at h
  obtain ⟨r, hr1, hr2⟩ := h
  cases hr2
  exact gen _ _ (Nat.le_refl _) _ _ _ _ hr1

/-- A forbidden pattern given `c` zeros before. -/
def Bad (c : Nat) (d : Bytes) : Prop := Forbidden (List.replicate c 0 ++ d)

/-- A forbidden pattern at the very start. -/
def BadHead (d : Bytes) : Prop :=
  (∃ b post, b < 3 ∧ d = 0 :: 0 :: b :: post) ∨ (∃ b post, 3 < b ∧ d = 0 :: 0 :: 3 :: b :: post)

theorem forbidden_cons (b : UInt8) (d : Bytes) : Forbidden (b :: d) ↔ BadHead (b :: d) ∨ Forbidden d := by
  constructor
  · rintro ⟨pre, post, h⟩
    cases pre with
    | nil =>
      left
      rcases h with ⟨x, hx, he⟩ | ⟨x, hx, he⟩
      · exact Or.inl ⟨x, post, hx, he⟩
      · exact Or.inr ⟨x, post, hx, he⟩
    | cons y pre =>
      right
      refine ⟨pre, post, ?_⟩
      rcases h with ⟨x, hx, he⟩ | ⟨x, hx, he⟩
      · left; simp only [List.cons_append, List.cons.injEq] at he; exact ⟨x, hx, he.2⟩
      · right; simp only [List.cons_append, List.cons.injEq] at he; exact ⟨x, hx, he.2⟩
  · rintro (h | ⟨pre, post, h⟩)
    · rcases h with ⟨x, post, hx, he⟩ | ⟨x, post, hx, he⟩
      · exact ⟨[], post, Or.inl ⟨x, hx, he⟩⟩
      · exact ⟨[], post, Or.inr ⟨x, hx, he⟩⟩
    · refine ⟨b :: pre, post, ?_⟩
      rcases h with ⟨x, hx, he⟩ | ⟨x, hx, he⟩
      · left; exact ⟨x, hx, by simp [he]⟩
      · right; exact ⟨x, hx, by simp [he]⟩

theorem forbidden_nil : ¬Forbidden [] := by
  rintro ⟨pre, post, ⟨x, _, he⟩ | ⟨x, _, he⟩⟩ <;> simp at he

theorem badHead_first (b : UInt8) (d : Bytes) (hb : b ≠ 0) : ¬BadHead (b :: d) := by
  rintro (⟨x, post, _, he⟩ | ⟨x, post, _, he⟩) <;> simp at he <;> exact hb he.1

theorem badHead_second (a b : UInt8) (d : Bytes) (hb : b ≠ 0) : ¬BadHead (a :: b :: d) := by
  rintro (⟨x, post, _, he⟩ | ⟨x, post, _, he⟩) <;> simp at he <;> exact hb he.2.1

theorem bad_of_nonzero (c : Nat) (b : UInt8) (d : Bytes) (hc : c ≤ 1) (hb : b ≠ 0) : Bad c (b :: d) ↔ Forbidden d := by
  have : c = 0 ∨ c = 1 := by omega
  rcases this with rfl | rfl
  · simp only [Bad, List.replicate_zero, List.nil_append]
    rw [forbidden_cons]; simp [badHead_first b d hb]
  · simp only [Bad, List.replicate_one, List.singleton_append]
    rw [forbidden_cons, forbidden_cons]; simp [badHead_first b d hb, badHead_second 0 b d hb]

theorem bad_two (b : UInt8) (d : Bytes) (hb : b ≠ 0) : Bad 2 (b :: d) ↔ BadHead (0 :: 0 :: b :: d) ∨ Forbidden d := by
  show Forbidden (0 :: 0 :: b :: d) ↔ _
  rw [forbidden_cons, forbidden_cons, forbidden_cons]
  simp [badHead_second 0 b d hb, badHead_first b d hb]

/-- Refused exactly for a forbidden pattern, given room. -/
theorem extract_none_iff (k : Nat) : ∀ (d : Bytes), d.length ≤ k → ∀ room c, c ≤ 2 → d.length ≤ room →
    (extract room c d = none ↔ Bad c d) := by
  induction k with
  | zero =>
    intro d hd room c hc hr
    have : d = [] := List.length_eq_zero_iff.1 (by omega)
    subst this
    have : c = 0 ∨ c = 1 ∨ c = 2 := by omega
    rcases this with rfl | rfl | rfl <;> simp only [extract, Bad] <;> simp [List.replicate, forbidden_cons, forbidden_nil, BadHead]
  | succ k ih =>
    intro d hd room c hc hr
    cases d with
    | nil =>
      have : c = 0 ∨ c = 1 ∨ c = 2 := by omega
      rcases this with rfl | rfl | rfl <;> simp only [extract, Bad] <;> simp [List.replicate, forbidden_cons, forbidden_nil, BadHead]
    | cons b d =>
      simp only [List.length_cons] at hd hr
      have hroom : room ≠ 0 := by omega
      by_cases hc2 : c = 2
      · subst hc2
        by_cases hb : b < 3
        · rw [extract.eq_def]
          simp only [true_and, if_pos hb, true_iff]
          exact ⟨[], d, Or.inl ⟨b, hb, rfl⟩⟩
        · have hb0 : b ≠ 0 := fun h => hb (by rw [h]; decide)
          rw [bad_two b d hb0]
          by_cases h3 : b = 3
          · subst h3
            cases d with
            | nil =>
              rw [extract.eq_def]
              simp only [true_and, if_neg hb, if_true]
              simp [forbidden_nil, BadHead]
            | cons n d' =>
              simp only [List.length_cons] at hd hr
              rw [extract.eq_def]
              simp only [true_and, if_neg hb, if_true]
              by_cases hn : 3 < n
              · simp only [if_pos hn, true_iff]
                exact Or.inl (Or.inr ⟨n, d', hn, rfl⟩)
              · simp only [if_neg hn, if_neg hroom, Option.map_eq_none_iff]
                rw [ih d' (by omega) _ _ (by split <;> omega) (by omega)]
                have hbh : ¬BadHead (0 :: 0 :: 3 :: n :: d') := by
                  rintro (⟨x, post, hx, he⟩ | ⟨x, post, hx, he⟩)
                  · simp at he; rw [← he.1] at hx; exact hb hx
                  · simp at he; rw [← he.1] at hx; exact hn hx
                simp only [hbh, false_or]
                by_cases hn0 : n = 0
                · simp only [hn0, if_true]; rfl
                · simp only [if_neg hn0]
                  have := bad_of_nonzero 0 n d' (by omega) hn0
                  simp only [Bad, List.replicate_zero, List.nil_append] at this ⊢
                  rw [this]
          · rw [extract.eq_def]
            simp only [true_and, if_neg hb, if_neg h3, if_neg hroom, if_neg hb0, Option.map_eq_none_iff]
            rw [ih d (by omega) _ _ (by omega) (by omega)]
            have hbh : ¬BadHead (0 :: 0 :: b :: d) := by
              rintro (⟨x, post, hx, he⟩ | ⟨x, post, hx, he⟩)
              · simp at he; rw [← he.1] at hx; exact hb hx
              · simp at he; exact h3 he.1
            simp only [hbh, false_or]
            rfl
      · rw [extract.eq_def]
        simp only [hc2, false_and, if_false, if_neg hroom, Option.map_eq_none_iff]
        by_cases hb0 : b = 0
        · simp only [hb0, if_true]
          rw [ih d (by omega) _ _ (by omega) (by omega)]
          simp only [Bad, List.replicate_succ']
          rw [List.append_assoc]; rfl
        · simp only [if_neg hb0]
          rw [ih d (by omega) _ _ (by omega) (by omega), bad_of_nonzero c b d (by omega) hb0]
          rfl

/-- **C27, refusals.**  With an output buffer the size of the unit, extraction fails exactly when the bytes after the header
contain a forbidden pattern. -/
theorem refused_iff_forbidden (h : UInt8) (d : Bytes) : nalToRbsp (h :: d) (h :: d).length = none ↔ Forbidden d := by
  unfold nalToRbsp
  rw [Option.map_eq_none_iff, List.tail_cons, extract_none_iff d.length d (Nat.le_refl _) _ 0 (by omega) (by simp)]
  rfl

/-- Recorded: a payload ending in a single zero comes back with the protection byte. -/
theorem odd_zeros_are_not_recovered : nalToRbsp (0x67 :: encapsulate [0x42, 0]) 10 = some ([0x42, 0, 3], 4) := by decide +kernel

/-- A payload with every kind of protected byte, and two zeros at the end. -/
example : encapsulate [1, 0, 0, 0, 0, 0, 1, 0, 0, 3, 5, 0, 0] =
    [1, 0, 0, 3, 0, 0, 3, 0, 1, 0, 0, 3, 3, 5, 0, 0, 3] ∧ zerosAtEnd 0 [1, 0, 0, 0, 0, 0, 1, 0, 0, 3, 5, 0, 0] % 2 = 0 := by
  decide +kernel

example : Forbidden [5, 0, 0, 1, 7] := ⟨[5], [7], Or.inl ⟨1, by decide, rfl⟩⟩

end Lms.Rbsp
