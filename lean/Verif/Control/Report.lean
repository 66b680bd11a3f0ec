import Verif.Control.Requests

/-!
# Numbers in requests and replies, and the report

A number the manager prints is read back as the same number; the report lists every filter and every path, in ascending order of
ids, with the filters the path was made of.
-/

namespace Lms.Control

open Lms Lms.Json

/-! ## Numbers -/

/-- Decimal digits. -/
def Digits (l : Str) : Prop := ∀ c ∈ l, '0' ≤ c ∧ c ≤ '9'

theorem digit_char : ∀ k, k < 10 → ('0' ≤ Char.ofNat (48 + k) ∧ Char.ofNat (48 + k) ≤ '9') ∧ (Char.ofNat (48 + k)).toNat - 48 = k := by
  decide

theorem leading_append (a b : Str) (h : Digits a) : leadingDigits (a ++ b) = a.map (fun c => c.toNat - 48) ++ leadingDigits b := by
  induction a with
  | nil => rfl
  | cons c a ih =>
    rw [List.cons_append, leadingDigits, if_pos (h c (List.mem_cons_self ..)), ih (fun x hx => h x (List.mem_cons_of_mem _ hx))]
    rfl

theorem dec_digits (n : Nat) : Digits (dec n) := by
  induction n using Nat.strongRecOn with
  | _ n ih =>
    rw [dec]
    split
    · intro c hc
      simp only [List.mem_singleton] at hc
      rw [hc]; exact (digit_char n (by omega)).1
    · intro c hc
      rcases List.mem_append.1 hc with hc | hc
      · exact ih (n / 10) (by omega) c hc
      · simp only [List.mem_singleton] at hc
        rw [hc]; exact (digit_char (n % 10) (by omega)).1

theorem dec_value (n : Nat) : ofDigits ((dec n).map fun c => c.toNat - 48) = n := by
  induction n using Nat.strongRecOn with
  | _ n ih =>
    rw [dec]
    split
    · simp only [List.map_cons, List.map_nil, ofDigits, List.foldl_cons, List.foldl_nil, (digit_char n (by omega)).2]; omega
    · have := ih (n / 10) (by omega)
      simp only [ofDigits] at this
      simp only [List.map_append, List.map_cons, List.map_nil, ofDigits, List.foldl_append, this, List.foldl_cons, List.foldl_nil,
        (digit_char (n % 10) (by omega)).2]
      omega

theorem read_digits (l : Str) (h : Digits l) : readInt l = clamp (ofDigits (l.map fun c => c.toNat - 48)) := by
  have e := leading_append l [] h
  simp only [List.append_nil, leadingDigits] at e
  unfold readInt
  split
  · rename_i r
    have := h '-' (List.mem_cons_self ..)
    exact absurd this (by decide)
  · rw [e]

/-- **C76.**  An `int` that is printed is read back as the same number. -/
theorem readInt_showInt (z : Int) (h : Fits z) : readInt (showInt z) = z := by
  obtain ⟨h1, h2⟩ := h
  unfold showInt
  split
  · have e := leading_append (dec z.natAbs) [] (dec_digits _)
    simp only [List.append_nil, leadingDigits] at e
    simp only [readInt, e, dec_value]
    unfold clamp
    rw [if_neg (by omega), if_neg (by omega)]; omega
  · rw [read_digits _ (dec_digits _), dec_value]
    unfold clamp
    rw [if_neg (by omega), if_neg (by omega)]; omega

theorem number_intNode (z : Int) (h : Fits z) : numberOf (intNode z) = some z := by
  simp [numberOf, isNum, intNode, intOf, readInt_showInt z h]

/-- **C76.**  What is used as a number in a request always is an `int`. -/
theorem readInt_fits (t : Str) : Fits (readInt t) := by
  have hc : ∀ z, Fits (clamp z) := by
    intro z; unfold clamp Fits; split
    · omega
    · split <;> omega
  unfold readInt
  split <;> exact hc _

/-- **C76 (recorded exception).**  Numbers that are no `int` are not refused: a fraction loses its fractional part, a sign or point alone is
zero, and a number too large is the largest `int`, so that two different ids name the same filter. -/
theorem numbers_taken_for_others :
    readInt "1.9".toList = 1 ∧ readInt "-".toList = 0 ∧ readInt "99999999999".toList = 2147483647 ∧
    readInt "99999999998".toList = 2147483647 ∧ readInt "1-2".toList = 1 := by
  refine ⟨?_, ?_, ?_, ?_, ?_⟩ <;> decide +kernel

/-! ## Order -/

theorem insertKey_perm {β : Type} (e : Int × β) (l : List (Int × β)) : (insertKey e l).Perm (e :: l) := by
  induction l with
  | nil => exact List.Perm.refl _
  | cons x l ih =>
    rw [insertKey]
    split
    · exact List.Perm.refl _
    · exact (ih.cons x).trans (List.Perm.swap ..)

theorem byKey_perm {β : Type} (l : List (Int × β)) : (byKey l).Perm l := by
  induction l with
  | nil => exact List.Perm.refl _
  | cons x l ih => exact (insertKey_perm x (byKey l)).trans (ih.cons x)

theorem insertKey_sorted {β : Type} (e : Int × β) (l : List (Int × β)) (h : l.Pairwise fun a b => a.1 ≤ b.1) :
    (insertKey e l).Pairwise fun a b => a.1 ≤ b.1 := by
  induction l with
  | nil => simp [insertKey]
  | cons x l ih =>
    rw [List.pairwise_cons] at h
    rw [insertKey]
    split
    · rename_i hlt
      rw [List.pairwise_cons, List.pairwise_cons]
      refine ⟨?_, h⟩
      intro y hy
      rcases List.mem_cons.1 hy with rfl | hy
      · omega
      · have := h.1 y hy; omega
    · rename_i hge
      rw [List.pairwise_cons]
      refine ⟨?_, ih h.2⟩
      intro y hy
      rcases List.mem_cons.1 ((insertKey_perm e l).mem_iff.1 hy) with rfl | hy
      · omega
      · exact h.1 y hy

theorem byKey_sorted {β : Type} (l : List (Int × β)) : (byKey l).Pairwise fun a b => a.1 ≤ b.1 := by
  induction l with
  | nil => exact List.Pairwise.nil
  | cons x l ih => exact insertKey_sorted x _ ih

/-! ## The report -/

theorem allSome_map {α β : Type} (f : β → Option α) (g : β → α) (l : List β) (h : ∀ x ∈ l, f x = some (g x)) :
    allSome (l.map f) = some (l.map g) := by
  induction l with
  | nil => rfl
  | cons x l ih =>
    rw [List.map_cons, h x (List.mem_cons_self ..), allSome, ih (fun y hy => h y (List.mem_cons_of_mem _ hy))]
    rfl

theorem readPath_report (s : Pipeline.S) (env : Env) (id : Int) (p : Pipeline.Path) (hi : Fits id) (hp : FitsPath p) :
    readPath (pathReport s env id p) = some (id, p) := by
  obtain ⟨h1, h2, h3, h4, h5⟩ := hp
  have a1 : ("originFilter".toList == "id".toList) = false := by decide +kernel
  have b1 : ("destinationFilter".toList == "id".toList) = false := by decide +kernel
  have b2 : ("destinationFilter".toList == "originFilter".toList) = false := by decide +kernel
  have c1 : ("originWriter".toList == "id".toList) = false := by decide +kernel
  have c2 : ("originWriter".toList == "originFilter".toList) = false := by decide +kernel
  have c3 : ("originWriter".toList == "destinationFilter".toList) = false := by decide +kernel
  have d1 : ("destinationReader".toList == "id".toList) = false := by decide +kernel
  have d2 : ("destinationReader".toList == "originFilter".toList) = false := by decide +kernel
  have d3 : ("destinationReader".toList == "destinationFilter".toList) = false := by decide +kernel
  have d4 : ("destinationReader".toList == "originWriter".toList) = false := by decide +kernel
  have e1 : ("filters".toList == "id".toList) = false := by decide +kernel
  have e2 : ("filters".toList == "originFilter".toList) = false := by decide +kernel
  have e3 : ("filters".toList == "destinationFilter".toList) = false := by decide +kernel
  have e4 : ("filters".toList == "originWriter".toList) = false := by decide +kernel
  have e5 : ("filters".toList == "destinationReader".toList) = false := by decide +kernel
  have e6 : ("filters".toList == "avgDelay".toList) = false := by decide +kernel
  have e7 : ("filters".toList == "lostBlocs".toList) = false := by decide +kernel
  have hm : allSome ((p.mids.map intNode).map numberOf) = some p.mids := by
    rw [List.map_map, allSome_map _ (fun x => x) p.mids (fun x hx => by simp only [Function.comp, number_intNode x (h5 x hx)])]
    simp
  have hn := number_intNode
  unfold readPath pathReport
  by_cases hx : (Pipeline.lookup s.filters p.dst).isSome = true
  · rw [if_pos hx]
    simp only [member, List.cons_append, List.nil_append, List.lookup, BEq.rfl, a1, b1, b2, c1, c2, c3, d1, d2, d3, d4, e1, e2, e3, e4, e5, e6,
      e7, Option.bind, hn _ hi, hn _ h1, hn _ h2, hn _ h3, hn _ h4, hm, bind, Option.map]
  · rw [if_neg hx]
    simp only [member, List.cons_append, List.nil_append, List.append_nil, List.lookup, BEq.rfl, a1, b1, b2, c1, c2, c3, d1, d2, d3, d4, e1, e2, e3,
      e4, e5, Option.bind, hn _ hi, hn _ h1, hn _ h2, hn _ h3, hn _ h4, hm, bind, Option.map]

/-- **C76.**  The report tells the registries: a client that reads it has the ids of all filters and all paths, in ascending order of
ids, each path with its ends and intermediate filters; asking changes nothing. -/
theorem report_tells_registries (s : C) (env : Env) (hw : Pipeline.WF s.pipe) (hf : ∀ e ∈ s.pipe.filters, Fits e.1)
    (hp : ∀ e ∈ s.pipe.paths, Fits e.1 ∧ FitsPath e.2) :
    ∃ r ids paths, getState s env = .ok (s, r) ∧ readReport r = some (ids, paths) ∧
      ids.Perm (s.pipe.filters.map (·.1)) ∧ paths.Perm s.pipe.paths ∧
      ids.Pairwise (· < ·) ∧ paths.Pairwise fun a b => a.1 < b.1 := by
  have strict : ∀ {β : Type} (l : List (Int × β)), (l.map (·.1)).Nodup → (byKey l).Pairwise fun a b => a.1 < b.1 := by
    intro β l hn
    have h1 := byKey_sorted l
    have h2 : ((byKey l).map (·.1)).Nodup := ((byKey_perm l).map _).nodup_iff.2 hn
    rw [List.Nodup, List.pairwise_map] at h2
    exact (h1.and h2).imp (fun h => by have := h.1; have := h.2; omega)
  refine ⟨_, (byKey s.pipe.filters).map (·.1), byKey s.pipe.paths, getState_ok env hw, ?_, (byKey_perm _).map _, byKey_perm _, ?_,
    strict _ hw.pathIds⟩
  · have k1 : ("paths".toList == "filters".toList) = false := by decide +kernel
    have e1 : allSome ((((byKey s.pipe.filters).map fun e => filterReport env e.1)).map fun n => (member "id" n).bind numberOf) =
        some ((byKey s.pipe.filters).map (·.1)) := by
      rw [List.map_map]
      refine allSome_map _ _ _ ?_
      intro x hx
      have := number_intNode x.1 (hf x ((byKey_perm _).mem_iff.1 hx))
      simp only [Function.comp, filterReport, member, List.lookup, BEq.rfl, Option.bind, this]
    have e2 : allSome ((((byKey s.pipe.paths).map fun e => pathReport s.pipe env e.1 e.2)).map readPath) = some (byKey s.pipe.paths) := by
      rw [List.map_map, allSome_map _ (fun x => x)]
      · simp
      intro x hx
      have := hp x ((byKey_perm _).mem_iff.1 hx)
      exact readPath_report s.pipe env x.1 x.2 this.1 this.2
    have m1 : ∀ a b, member "filters" (.obj [("filters".toList, a), ("paths".toList, b)]) = some a := by
      intro a b; simp only [member, List.lookup, BEq.rfl]
    have m2 : ∀ a b, member "paths" (.obj [("filters".toList, a), ("paths".toList, b)]) = some b := by
      intro a b; simp only [member, List.lookup, BEq.rfl, k1]
    unfold readReport
    rw [m1, m2]
    simp only
    rw [e1, e2]
    rfl
  · rw [List.pairwise_map]
    exact strict _ hw.filterIds

end Lms.Control
