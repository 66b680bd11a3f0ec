import Verif.Sources.Model
import Verif.Common.Bits

/-!
# C40: parameter sets from Annex B extradata
-/

namespace Lms.Sources

/-! ## Specification -/

/-- A NAL unit as the standards have it: not empty, no start code inside, no zero byte at the end. -/
structure IsUnit (u : Bytes) : Prop where
  ne : u ≠ []
  clean : ∀ p q, u ≠ p ++ [0, 0, 1] ++ q
  last : u.getLast? ≠ some 0

/-- Annex B: every unit behind a long or a short start code. -/
def annexB (l : List (Bool × Bytes)) : Bytes :=
  l.flatMap fun x => (if x.1 then [0, 0, 0, 1] else [0, 0, 1]) ++ x.2

/-- The type field of a unit's first byte, by the bits of the standards. -/
def unitType (codec : Codec) (u : Bytes) : Nat :=
  match codec with
  | .h265 => natOf (((bitsOf (u.take 1)).drop 1).take 6)
  | _ => natOf ((bitsOf (u.take 1)).drop 3)

/-- The last unit of a type. -/
def lastOf (codec : Codec) (t : Nat) (us : List Bytes) : Option Bytes :=
  (us.filter fun u => unitType codec u == t).getLast?

/-! ## Splitting -/

theorem IsUnit.tail {b : UInt8} {v : Bytes} (h : IsUnit (b :: v)) (hv : v ≠ []) : IsUnit v := by
  refine ⟨hv, ?_, ?_⟩
  · intro p q e; exact h.clean (b :: p) q (by rw [e]; simp)
  · have := h.last
    rwa [List.getLast?_cons_of_ne_nil hv] at this

theorem three_eq {a b c : UInt8} : a.toNat * 2 ^ 16 + b.toNat * 2 ^ 8 + c.toNat = 1 ↔ a = 0 ∧ b = 0 ∧ c = 1 := by
  have := a.toNat_lt; have := b.toNat_lt; have := c.toNat_lt
  constructor
  · intro h
    refine ⟨UInt8.toNat.inj ?_, UInt8.toNat.inj ?_, UInt8.toNat.inj ?_⟩
    · show a.toNat = 0; omega
    · show b.toNat = 0; omega
    · show c.toNat = 1; omega
  · rintro ⟨rfl, rfl, rfl⟩; rfl

theorem four_eq {a b c d : UInt8} : a.toNat * 2 ^ 24 + b.toNat * 2 ^ 16 + c.toNat * 2 ^ 8 + d.toNat = 1 ↔ a = 0 ∧ b = 0 ∧ c = 0 ∧ d = 1 := by
  have := a.toNat_lt; have := b.toNat_lt; have := c.toNat_lt; have := d.toNat_lt
  constructor
  · intro h
    refine ⟨UInt8.toNat.inj ?_, UInt8.toNat.inj ?_, UInt8.toNat.inj ?_, UInt8.toNat.inj ?_⟩
    · show a.toNat = 0; omega
    · show b.toNat = 0; omega
    · show c.toNat = 0; omega
    · show d.toNat = 1; omega
  · rintro ⟨rfl, rfl, rfl, rfl⟩; rfl

/-- `startOffset` is about the next bytes being a start code. -/
theorem startOffset_eq (a b c d : UInt8) (r : Bytes) :
    startOffset (a :: b :: c :: d :: r) =
      .ok (if a = 0 ∧ b = 0 ∧ c = 1 then 3 else if a = 0 ∧ b = 0 ∧ c = 0 ∧ d = 1 then 4 else 0) := by
  rw [startOffset]
  by_cases h : a.toNat * 2 ^ 16 + b.toNat * 2 ^ 8 + c.toNat = 1
  · rw [if_pos h, if_pos (three_eq.1 h)]
  · rw [if_neg h, if_neg (fun h' => h (three_eq.2 h'))]
    show (if a.toNat * 2 ^ 24 + b.toNat * 2 ^ 16 + c.toNat * 2 ^ 8 + d.toNat = 1 then Outcome.ok 4 else Outcome.ok 0) = _
    by_cases h4 : a.toNat * 2 ^ 24 + b.toNat * 2 ^ 16 + c.toNat * 2 ^ 8 + d.toNat = 1
    · rw [if_pos h4, if_pos (four_eq.1 h4)]
    · rw [if_neg h4, if_neg (fun h' => h4 (four_eq.2 h'))]

theorem startOffset_unit (v tail : Bytes) (h : IsUnit v) (ht : 3 ≤ tail.length) : startOffset (v ++ tail) = .ok 0 := by
  rcases tail with _ | ⟨t0, _ | ⟨t1, _ | ⟨t2, tail⟩⟩⟩ <;> simp at ht
  rcases v with _ | ⟨a, _ | ⟨b, _ | ⟨c, _ | ⟨d, v⟩⟩⟩⟩
  · exact absurd rfl h.ne
  · have ha : a ≠ 0 := fun e => h.last (by simp [e])
    simp only [List.cons_append, List.nil_append, startOffset_eq, ha, false_and, if_false]
  · have hb : b ≠ 0 := fun e => h.last (by simp [e])
    simp only [List.cons_append, List.nil_append, startOffset_eq, hb, false_and, and_false, if_false]
  · have hc : c ≠ 0 := fun e => h.last (by simp [e])
    have hcl : ¬ (a = 0 ∧ b = 0 ∧ c = 1) := by rintro ⟨rfl, rfl, rfl⟩; exact h.clean [] [] rfl
    simp only [List.cons_append, List.nil_append, startOffset_eq, hcl, hc, false_and, and_false, if_false]
  · have hcl : ¬ (a = 0 ∧ b = 0 ∧ c = 1) := by rintro ⟨rfl, rfl, rfl⟩; exact h.clean [] (d :: v) rfl
    have hcl4 : ¬ (a = 0 ∧ b = 0 ∧ c = 0 ∧ d = 1) := by rintro ⟨rfl, rfl, rfl, rfl⟩; exact h.clean [0] v rfl
    simp only [List.cons_append, startOffset_eq, hcl, hcl4, if_false]

theorem scan_zero (rest acc : Bytes) : scan 0 rest acc = .ok [acc] := by rw [scan]; rfl

theorem scan_step (n : Nat) (rest acc : Bytes) (h : startOffset rest = .ok 0) :
    scan (n + 1) rest acc = scan n (rest.drop 1) (acc ++ rest.take 1) := by
  rw [scan, dif_neg (by omega)]; simp only [h]; rfl

theorem scan_code (left k : Nat) (rest acc : Bytes) (h : startOffset rest = .ok (k + 1)) (hl : k + 1 ≤ left) :
    scan left rest acc = (scan (left - (k + 1)) (rest.drop (k + 1)) []).map (acc :: ·) := by
  rw [scan, dif_neg (by omega)]; simp only [h]; rw [if_neg (by omega)]

/-- A unit is passed over. -/
theorem scan_unit (v : Bytes) : ∀ (n : Nat) (tail acc : Bytes), v = [] ∨ IsUnit v → 3 ≤ tail.length →
    scan (v.length + n) (v ++ tail) acc = scan n tail (acc ++ v) := by
  induction v with
  | nil => intro n tail acc _ _; simp
  | cons b v ih =>
    intro n tail acc h ht
    have hu : IsUnit (b :: v) := by rcases h with h | h; · simp at h
                                    · exact h
    rw [show (b :: v).length + n = (v.length + n) + 1 by simp; omega, scan_step _ _ _ (startOffset_unit _ _ hu ht)]
    show scan (v.length + n) (v ++ tail) (acc ++ [b]) = _
    rw [ih n tail _ (by by_cases hv : v = []; · exact Or.inl hv
                        · exact Or.inr (hu.tail hv)) ht]
    simp

theorem annexB_cons (b : Bool) (u : Bytes) (l : List (Bool × Bytes)) :
    annexB ((b, u) :: l) = (if b then [0, 0, 0, 1] else [0, 0, 1]) ++ u ++ annexB l := by
  unfold annexB; rw [List.flatMap_cons]

/-- The extradata splits into its units. -/
theorem scan_units (behind : Bytes) (hb : 3 ≤ behind.length) : ∀ (l : List (Bool × Bytes)), (∀ x ∈ l, IsUnit x.2) → ∀ acc,
    scan (annexB l).length (annexB l ++ behind) acc = .ok (acc :: l.map (·.2)) := by
  intro l
  induction l with
  | nil => intro _ acc; exact scan_zero _ _
  | cons x l ih =>
    intro hu acc
    obtain ⟨b, u⟩ := x
    have hx : IsUnit u := hu (b, u) (by simp)
    have htail : 3 ≤ (annexB l ++ behind).length := by rw [List.length_append]; omega
    have hgo : scan (u ++ annexB l).length (u ++ annexB l ++ behind) [] = .ok (u :: l.map (·.2)) := by
      rw [List.length_append, List.append_assoc, scan_unit u _ _ [] (Or.inr hx) htail, List.nil_append]
      exact ih (fun y hy => hu y (by simp [hy])) u
    have hlen : ∃ c r, u ++ annexB l ++ behind = c :: r := by
      cases hd : u ++ annexB l ++ behind with
      | nil => rw [List.append_eq_nil_iff] at hd; rw [hd.2] at hb; simp at hb
      | cons c r => exact ⟨c, r, rfl⟩
    obtain ⟨c, r, hd⟩ := hlen
    rw [annexB_cons]
    cases b with
    | true =>
      have hs : startOffset ([0, 0, 0, 1] ++ u ++ annexB l ++ behind) = .ok (3 + 1) := by
        rw [List.append_assoc, List.append_assoc]; exact startOffset_eq 0 0 0 1 _
      rw [if_pos rfl, scan_code _ 3 _ _ hs (by simp), show List.drop (3 + 1) ([0, 0, 0, 1] ++ u ++ annexB l ++ behind) = u ++ annexB l ++ behind by
        rw [List.append_assoc, List.append_assoc, ← List.append_assoc u]; rfl,
        show ([0, 0, 0, 1] ++ u ++ annexB l : Bytes).length - (3 + 1) = (u ++ annexB l).length by simp, hgo]
      rfl
    | false =>
      have hs : startOffset ([0, 0, 1] ++ u ++ annexB l ++ behind) = .ok (2 + 1) := by
        rw [List.append_assoc, List.append_assoc, ← List.append_assoc u, hd]; exact startOffset_eq 0 0 1 c r
      rw [if_neg (by decide), scan_code _ 2 _ _ hs (by simp), show List.drop (2 + 1) ([0, 0, 1] ++ u ++ annexB l ++ behind) = u ++ annexB l ++ behind by
        rw [List.append_assoc, List.append_assoc, ← List.append_assoc u]; rfl,
        show ([0, 0, 1] ++ u ++ annexB l : Bytes).length - (2 + 1) = (u ++ annexB l).length by simp, hgo]
      rfl

/-! ## Keeping the parameter sets -/

theorem type264 (b : UInt8) (r : Bytes) (c : Codec) (hc : c ≠ .h265) : unitType c (b :: r) = b.toNat % 32 := by
  have key : ∀ n : Fin 256, natOf ((bitsOf [UInt8.ofNat n.val]).drop 3) = n.val % 32 := by decide +kernel
  have := key ⟨b.toNat, b.toNat_lt⟩
  simp only [UInt8.ofNat_toNat] at this
  cases c with
  | h265 => exact absurd rfl hc
  | h264 => exact this
  | other => exact this

theorem type265 (b : UInt8) (r : Bytes) : unitType .h265 (b :: r) = b.toNat / 2 % 64 := by
  have key : ∀ n : Fin 256, natOf (((bitsOf [UInt8.ofNat n.val]).drop 1).take 6) = n.val / 2 % 64 := by decide +kernel
  have := key ⟨b.toNat, b.toNat_lt⟩
  simp only [UInt8.ofNat_toNat] at this
  exact this

/-- What a set is announced as. -/
def announced (u : Bytes) : Bytes × Nat := (u, u.length % 256)

theorem lastOf_cons (c : Codec) (t : Nat) (u : Bytes) (us : List Bytes) :
    lastOf c t (u :: us) = (lastOf c t us).or (if unitType c u = t then some u else none) := by
  unfold lastOf
  rw [List.filter_cons]
  by_cases h : unitType c u = t
  · simp only [h, beq_self_eq_true, if_true]
    rw [List.getLast?_cons]
    cases (us.filter fun u => unitType c u == t).getLast? <;> rfl
  · have : (unitType c u == t) = false := by simp [h]
    simp only [this, h, if_false, Bool.false_eq_true, Option.or_none]

/-- The sets kept are the last ones of their types. -/
theorem fed264 (us : List Bytes) (hne : ∀ u ∈ us, u ≠ []) : ∀ p, ∃ p', feedAll .h264 p us = .ok p' ∧
    p'.sps = ((lastOf .h264 7 us).map announced).or p.sps ∧ p'.pps = ((lastOf .h264 8 us).map announced).or p.pps ∧ p'.vps = p.vps := by
  induction us with
  | nil => intro p; exact ⟨p, rfl, rfl, rfl, rfl⟩
  | cons u us ih =>
    intro p
    have ih := ih (fun x hx => hne x (by simp [hx]))
    cases u with
    | nil => exact absurd rfl (hne [] (by simp))
    | cons b r =>
      have ht := type264 b r .h264 (by decide)
      have e : feed .h264 p (b :: r) = .ok (if b.toNat % 32 = 7 then { p with sps := some (announced (b :: r)) }
          else if b.toNat % 32 = 8 then { p with pps := some (announced (b :: r)) } else p) := by
        show (if b.toNat % 32 = 7 then _ else if b.toNat % 32 = 8 then _ else _) = _
        split
        · rfl
        · split <;> rfl
      rw [feedAll, e, Outcome.bind_ok]
      obtain ⟨p', e1, e2, e3, e4⟩ := ih (if b.toNat % 32 = 7 then { p with sps := some (announced (b :: r)) }
          else if b.toNat % 32 = 8 then { p with pps := some (announced (b :: r)) } else p)
      refine ⟨p', e1, ?_, ?_, ?_⟩
      · rw [e2, lastOf_cons, ht]
        by_cases h7 : b.toNat % 32 = 7
        · simp only [h7, if_true]; cases lastOf .h264 7 us <;> rfl
        · rw [if_neg h7, if_neg h7]
          split <;> cases lastOf .h264 7 us <;> rfl
      · rw [e3, lastOf_cons, ht]
        by_cases h7 : b.toNat % 32 = 7
        · simp only [h7, if_true]; cases lastOf .h264 8 us <;> rfl
        · rw [if_neg h7]
          by_cases h8 : b.toNat % 32 = 8
          · simp only [h8, if_true]; cases lastOf .h264 8 us <;> rfl
          · rw [if_neg h8, if_neg h8]; cases lastOf .h264 8 us <;> rfl
      · rw [e4]; split
        · rfl
        · split <;> rfl

theorem fed265 (us : List Bytes) (hne : ∀ u ∈ us, u ≠ []) : ∀ p, ∃ p', feedAll .h265 p us = .ok p' ∧
    p'.sps = ((lastOf .h265 33 us).map announced).or p.sps ∧ p'.pps = ((lastOf .h265 34 us).map announced).or p.pps ∧
    p'.vps = ((lastOf .h265 32 us).map announced).or p.vps := by
  induction us with
  | nil => intro p; exact ⟨p, rfl, rfl, rfl, rfl⟩
  | cons u us ih =>
    intro p
    have ih := ih (fun x hx => hne x (by simp [hx]))
    cases u with
    | nil => exact absurd rfl (hne [] (by simp))
    | cons b r =>
      have ht := type265 b r
      obtain ⟨t, hte⟩ : ∃ t, b.toNat / 2 % 64 = t := ⟨_, rfl⟩
      have e : feed .h265 p (b :: r) = .ok (if t = 33 then { p with sps := some (announced (b :: r)) }
          else if t = 34 then { p with pps := some (announced (b :: r)) }
          else if t = 32 then { p with vps := some (announced (b :: r)) } else p) := by
        show (if b.toNat / 2 % 64 = 33 then _ else if b.toNat / 2 % 64 = 34 then _ else if b.toNat / 2 % 64 = 32 then _ else _) = _
        rw [hte]
        split
        · rfl
        · split
          · rfl
          · split <;> rfl
      rw [feedAll, e, Outcome.bind_ok]
      rw [hte] at ht
      obtain ⟨p', e1, e2, e3, e4⟩ := ih (if t = 33 then { p with sps := some (announced (b :: r)) }
          else if t = 34 then { p with pps := some (announced (b :: r)) }
          else if t = 32 then { p with vps := some (announced (b :: r)) } else p)
      refine ⟨p', e1, ?_, ?_, ?_⟩
      · rw [e2, lastOf_cons, ht]
        by_cases h1 : t = 33
        · subst h1; cases lastOf .h265 33 us <;> rfl
        · by_cases h2 : t = 34
          · subst h2; cases lastOf .h265 33 us <;> rfl
          · by_cases h3 : t = 32
            · subst h3; cases lastOf .h265 33 us <;> rfl
            · simp only [h1, h2, h3, if_false]; cases lastOf .h265 33 us <;> rfl
      · rw [e3, lastOf_cons, ht]
        by_cases h1 : t = 33
        · subst h1; cases lastOf .h265 34 us <;> rfl
        · by_cases h2 : t = 34
          · subst h2; cases lastOf .h265 34 us <;> rfl
          · by_cases h3 : t = 32
            · subst h3; cases lastOf .h265 34 us <;> rfl
            · simp only [h1, h2, h3, if_false]; cases lastOf .h265 34 us <;> rfl
      · rw [e4, lastOf_cons, ht]
        by_cases h1 : t = 33
        · subst h1; cases lastOf .h265 32 us <;> rfl
        · by_cases h2 : t = 34
          · subst h2; cases lastOf .h265 32 us <;> rfl
          · by_cases h3 : t = 32
            · subst h3; cases lastOf .h265 32 us <;> rfl
            · simp only [h1, h2, h3, if_false]; cases lastOf .h265 32 us <;> rfl

theorem start_annexB (b : Bool) (u : Bytes) (l : List (Bool × Bytes)) (behind : Bytes) (hne : u ≠ []) :
    startOffset (annexB ((b, u) :: l) ++ behind) = .ok (if b then 4 else 3) := by
  obtain ⟨c, r, hc⟩ := List.exists_cons_of_ne_nil hne
  rw [annexB_cons, hc]
  cases b with
  | true => exact startOffset_eq 0 0 0 1 _
  | false => exact startOffset_eq 0 0 1 c _

/-- Parsing hands exactly the units to the keeping of parameter sets. -/
theorem parse_units (codec : Codec) (p : Params) (l : List (Bool × Bytes)) (hl : l ≠ []) (hu : ∀ x ∈ l, IsUnit x.2) (behind : Bytes)
    (hb : 3 ≤ behind.length) :
    parseExtradata codec p (annexB l) behind = (feedAll codec p (l.map (·.2))).bind fun p' => Outcome.ok (p', match codec with
      | .h264 => p'.sps.isSome && p'.pps.isSome
      | .h265 => p'.sps.isSome && p'.pps.isSome && p'.vps.isSome
      | .other => false) := by
  cases l with
  | nil => exact absurd rfl hl
  | cons x l =>
    obtain ⟨b, u⟩ := x
    have hx : IsUnit u := hu (b, u) (by simp)
    have htail : 3 ≤ (annexB l ++ behind).length := by rw [List.length_append]; omega
    have hgo : scan (u ++ annexB l).length (u ++ annexB l ++ behind) [] = .ok (u :: l.map (·.2)) := by
      rw [List.length_append, List.append_assoc, scan_unit u _ _ [] (Or.inr hx) htail, List.nil_append]
      exact scan_units behind hb l (fun y hy => hu y (by simp [hy])) u
    have hn : (annexB ((b, u) :: l)).length = (if b then 4 else 3) + (u ++ annexB l).length := by
      rw [annexB_cons]; cases b <;> simp <;> omega
    have hd : (annexB ((b, u) :: l) ++ behind).drop (if b then 4 else 3) = u ++ annexB l ++ behind := by
      rw [annexB_cons]; cases b <;> simp
    have hk : (if b then 4 else 3 : Nat) ≠ 0 := by cases b <;> decide
    unfold parseExtradata
    rw [start_annexB b u l behind hx.ne, if_neg (by rw [hn]; omega), Outcome.bind_ok, if_neg (by rw [hn]; omega), if_neg hk, hn, hd,
      Nat.add_sub_cancel_left, hgo, Outcome.bind_ok]
    rfl

/-- **C40, H.264.** -/
theorem extradata264 (l : List (Bool × Bytes)) (hl : l ≠ []) (hu : ∀ x ∈ l, IsUnit x.2) (behind : Bytes) (hb : 3 ≤ behind.length) :
    ∃ p, parseExtradata .h264 {} (annexB l) behind = .ok (p, p.sps.isSome && p.pps.isSome) ∧
      p.sps = (lastOf .h264 7 (l.map (·.2))).map announced ∧ p.pps = (lastOf .h264 8 (l.map (·.2))).map announced := by
  obtain ⟨p, e1, e2, e3, -⟩ := fed264 (l.map (·.2)) (by
    intro u h; obtain ⟨x, hx, rfl⟩ := List.mem_map.1 h; exact (hu x hx).ne) {}
  refine ⟨p, ?_, ?_, ?_⟩
  · rw [parse_units _ _ _ hl hu _ hb, e1]; rfl
  · rw [e2]; simp
  · rw [e3]; simp

/-- **C40, H.265.** -/
theorem extradata265 (l : List (Bool × Bytes)) (hl : l ≠ []) (hu : ∀ x ∈ l, IsUnit x.2) (behind : Bytes) (hb : 3 ≤ behind.length) :
    ∃ p, parseExtradata .h265 {} (annexB l) behind = .ok (p, p.sps.isSome && p.pps.isSome && p.vps.isSome) ∧
      p.sps = (lastOf .h265 33 (l.map (·.2))).map announced ∧ p.pps = (lastOf .h265 34 (l.map (·.2))).map announced ∧
      p.vps = (lastOf .h265 32 (l.map (·.2))).map announced := by
  obtain ⟨p, e1, e2, e3, e4⟩ := fed265 (l.map (·.2)) (by
    intro u h; obtain ⟨x, hx, rfl⟩ := List.mem_map.1 h; exact (hu x hx).ne) {}
  refine ⟨p, ?_, ?_, ?_, ?_⟩
  · rw [parse_units _ _ _ hl hu _ hb, e1]; rfl
  · rw [e2]; simp
  · rw [e3]; simp
  · rw [e4]; simp

/-- The announced part of a set is the whole set exactly if it has less than 256 bytes. -/
theorem announced_whole_iff (u : Bytes) : u.take (announced u).2 = u ↔ u.length < 256 := by
  unfold announced
  simp only
  constructor
  · intro h
    have := congrArg List.length h
    rw [List.length_take] at this
    omega
  · intro h
    rw [List.take_of_length_le (by omega)]

/-! ## Recorded: the search reads behind the extradata -/

theorem scan_reads_behind (v : Bytes) (h : IsUnit v) : ∀ acc, scan v.length v acc = .ub := by
  induction v with
  | nil => exact absurd rfl h.ne
  | cons a v ih =>
    intro acc
    rw [scan, dif_neg (by simp)]
    rcases v with _ | ⟨b, _ | ⟨c, _ | ⟨d, v⟩⟩⟩
    · simp only [startOffset]
    · simp only [startOffset]
    · have : startOffset [a, b, c] = .ub := by
        rw [startOffset, if_neg]
        intro e
        obtain ⟨rfl, rfl, rfl⟩ := three_eq.1 e
        exact h.clean [] [] rfl
      simp only [this]
    · have hs : startOffset (a :: b :: c :: d :: v) = .ok 0 := by
        have hcl : ¬ (a = 0 ∧ b = 0 ∧ c = 1) := by rintro ⟨rfl, rfl, rfl⟩; exact h.clean [] (d :: v) rfl
        have hcl4 : ¬ (a = 0 ∧ b = 0 ∧ c = 0 ∧ d = 1) := by rintro ⟨rfl, rfl, rfl, rfl⟩; exact h.clean [0] v rfl
        simp only [startOffset_eq, hcl, hcl4, if_false]
      simp only [hs]
      exact ih (h.tail (by simp)) _

theorem scan_reads_behind' : ∀ (l : List (Bool × Bytes)) (u : Bytes), IsUnit u → (∀ x ∈ l, IsUnit x.2) → ∀ acc,
    scan (u ++ annexB l).length (u ++ annexB l) acc = .ub := by
  intro l
  induction l with
  | nil => intro u hu _ acc; simpa [annexB] using scan_reads_behind u hu acc
  | cons x l ih =>
    intro u hu hl acc
    obtain ⟨b, w⟩ := x
    have hw : IsUnit w := hl (b, w) (by simp)
    have hwl : 0 < w.length := List.length_pos_iff.2 hw.ne
    have hlen : 3 ≤ (annexB ((b, w) :: l)).length := by rw [annexB_cons]; cases b <;> simp <;> omega
    rw [List.length_append, scan_unit u _ _ acc (Or.inr hu) hlen]
    have hs := start_annexB b w l [] hw.ne
    rw [List.append_nil] at hs
    have hgo := ih w hw (fun y hy => hl y (by simp [hy])) []
    have hn : (annexB ((b, w) :: l)).length = (if b then 4 else 3) + (w ++ annexB l).length := by
      rw [annexB_cons]; cases b <;> simp <;> omega
    have hd : (annexB ((b, w) :: l)).drop (if b then 4 else 3) = w ++ annexB l := by
      rw [annexB_cons]; cases b <;> simp
    cases b with
    | true =>
      simp only [if_true] at hs hn hd
      rw [scan_code _ 3 _ _ hs (by omega), hn, hd, Nat.add_sub_cancel_left, hgo]; rfl
    | false =>
      simp only [Bool.false_eq_true, if_false] at hs hn hd
      rw [scan_code _ 2 _ _ hs (by omega), hn, hd, Nat.add_sub_cancel_left, hgo]; rfl

/-- In an allocation of exactly the extradata (StreamInfo.hh:74) the search always leaves it. -/
theorem exact_allocation_overread (codec : Codec) (p : Params) (l : List (Bool × Bytes)) (hl : l ≠ []) (hu : ∀ x ∈ l, IsUnit x.2) :
    parseExtradata codec p (annexB l) [] = .ub := by
  cases l with
  | nil => exact absurd rfl hl
  | cons x l =>
    obtain ⟨b, u⟩ := x
    have hx : IsUnit u := hu (b, u) (by simp)
    have hgo := scan_reads_behind' l u hx (fun y hy => hu y (by simp [hy])) []
    have hn : (annexB ((b, u) :: l)).length = (if b then 4 else 3) + (u ++ annexB l).length := by
      rw [annexB_cons]; cases b <;> simp <;> omega
    have hd : (annexB ((b, u) :: l) ++ []).drop (if b then 4 else 3) = u ++ annexB l := by
      rw [annexB_cons]; cases b <;> simp
    have hk : (if b then 4 else 3 : Nat) ≠ 0 := by cases b <;> decide
    unfold parseExtradata
    rw [start_annexB b u l [] hx.ne, if_neg (by rw [hn]; omega), Outcome.bind_ok, if_neg (by rw [hn]; omega), if_neg hk, hn, hd,
      Nat.add_sub_cancel_left, hgo]
    rfl

/-- Recorded: zero bytes before a long start code stay with the unit. -/
theorem trailing_zero_kept : scan 9 [7, 1, 0, 0, 0, 0, 1, 8, 2, 0xfd, 0xfd, 0xfd] [] = .ok [[7, 1, 0], [8, 2]] := by
  decide +kernel

/-! ## Cases -/

example : IsUnit [0x67, 0x42, 0, 0x1e] := ⟨by simp, by
  intro p q h
  rcases p with _ | ⟨a, _ | ⟨b, p⟩⟩
  · simp at h
  · simp at h
  · have := congrArg List.length h; simp at this; omega, by decide⟩

example : parseExtradata .h264 {} (annexB [(true, [0x67, 0x42, 0, 0x1e]), (false, [0x68, 0xce, 0x38, 0x80])]) [0, 0, 0] =
    .ok (⟨none, some ([0x67, 0x42, 0, 0x1e], 4), some ([0x68, 0xce, 0x38, 0x80], 4)⟩, true) := by decide +kernel

example : parseExtradata .h265 {} (annexB [(true, [0x40, 1]), (true, [0x42, 1]), (false, [0x44, 1])]) [0, 0, 0] =
    .ok (⟨some ([0x40, 1], 2), some ([0x42, 1], 2), some ([0x44, 1], 2)⟩, true) := by decide +kernel

/-- Recorded: extradata that ends in two zeros, with a one behind it in memory, is taken to hold a start code that it does not hold; the
length that is left becomes negative. -/
theorem code_completed_behind (v behind acc : Bytes) (hv : v = [] ∨ IsUnit v) : scan (v.length + 2) (v ++ 0 :: 0 :: 1 :: behind) acc = .ub := by
  have hs : startOffset (0 :: 0 :: 1 :: behind) = .ok 3 := by unfold startOffset; exact if_pos (by decide)
  rw [scan_unit v 2 _ acc hv (by simp), scan, dif_neg (by omega)]
  simp only [hs]
  exact if_pos (by omega)

example : scan 2 [0, 0, 1] [] = .ub := code_completed_behind [] [] [] (Or.inl rfl)

end Lms.Sources
