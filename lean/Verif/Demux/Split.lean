import Verif.Demux.Model

/-!
# C42: an Annex B packet is split into its NAL units
-/

namespace Lms.Demux

/-! ## Specification -/

/-- A NAL unit as the standard has it: not empty, no start code inside, no zero byte at the end. -/
structure IsUnit (u : Bytes) : Prop where
  ne : u ≠ []
  clean : ∀ p q, u ≠ p ++ [0, 0, 1] ++ q
  last : u.getLast? ≠ some 0

/-- The long and the short start code. -/
def code (long : Bool) : Bytes := if long then [0, 0, 0, 1] else [0, 0, 1]

/-- Annex B: every unit behind a long or a short start code. -/
def annexB : List (Bool × Bytes) → Bytes
  | [] => []
  | (b, u) :: r => code b ++ u ++ annexB r

/-- What comes out: every unit behind a long start code, except that a last unit taking at most
seven bytes with its start code stays, with that start code, at the end of the unit before it. -/
def pieces : List (Bool × Bytes) → List Bytes
  | [] => []
  | [(_, u)] => [[0, 0, 0, 1] ++ u]
  | [(_, u), (b, v)] =>
    if (code b ++ v).length ≤ 7 then [[0, 0, 0, 1] ++ u ++ (code b ++ v)] else [[0, 0, 0, 1] ++ u, [0, 0, 0, 1] ++ v]
  | (_, u) :: r => ([0, 0, 0, 1] ++ u) :: pieces r

/-- Units each in a frame of its own behind a long start code. -/
def separate (l : List (Bool × Bytes)) : List Bytes := l.map fun x => [0, 0, 0, 1] ++ x.2

/-- Nothing is merged when the last unit is long enough. -/
theorem pieces_separate : ∀ (l : List (Bool × Bytes)), (∀ x ∈ l.getLast?, (code x.1 ++ x.2).length > 7) →
    pieces l = separate l
  | [], _ => rfl
  | [(_, _)], _ => rfl
  | [(_, u), (b, v)], h => by
    have := h (b, v) (by simp)
    simp only [pieces, separate, List.map_cons, List.map_nil]
    rw [if_neg (by simpa using this)]
  | (b0, u) :: (b1, v) :: (b2, w) :: r, h => by
    rw [pieces]
    · rw [pieces_separate ((b1, v) :: (b2, w) :: r) (by simpa [List.getLast?_cons] using h)]; rfl
    · simp
    · simp

example : pieces [(true, [0x67, 1]), (false, [0x0B])] = [[0, 0, 0, 1, 0x67, 1, 0, 0, 1, 0x0B]] ∧
    pieces [(true, [0x67, 1]), (false, [0x65, 1, 2, 3, 4])] = [[0, 0, 0, 1, 0x67, 1], [0, 0, 0, 1, 0x65, 1, 2, 3, 4]] := by decide

/-! ## The search -/

theorem IsUnit.tail {b : UInt8} {v : Bytes} (h : IsUnit (b :: v)) (hv : v ≠ []) : IsUnit v := by
  refine ⟨hv, ?_, ?_⟩
  · intro p q e; exact h.clean (b :: p) q (by rw [e]; simp)
  · have := h.last
    rwa [List.getLast?_cons_of_ne_nil hv] at this

theorem code_length (b : Bool) : (code b).length = if b then 4 else 3 := by cases b <;> rfl

/-- No start code begins inside a unit. -/
theorem unit_no_code {v tail : Bytes} (h : IsUnit v) {a b c d : UInt8} {r : Bytes} (e : v ++ tail = a :: b :: c :: d :: r) :
    isCode a b c d = false := by
  unfold isCode
  rcases v with _ | ⟨a', _ | ⟨b', _ | ⟨c', _ | ⟨d', v⟩⟩⟩⟩
  · exact absurd rfl h.ne
  all_goals simp only [List.cons_append, List.nil_append, List.cons.injEq] at e
  · obtain ⟨rfl, _⟩ := e
    have ha : a' ≠ 0 := fun e => h.last (by simp [e])
    simp [ha]
  · obtain ⟨rfl, rfl, _⟩ := e
    have hb : b' ≠ 0 := fun e => h.last (by simp [e])
    simp [hb]
  · obtain ⟨rfl, rfl, rfl, _⟩ := e
    have hc : c' ≠ 0 := fun e => h.last (by simp [e])
    have hcl : ¬ (a' = 0 ∧ b' = 0 ∧ c' = 1) := by rintro ⟨rfl, rfl, rfl⟩; exact h.clean [] [] rfl
    simp [hc]; grind
  · obtain ⟨rfl, rfl, rfl, rfl, _⟩ := e
    have hcl : ¬ (a' = 0 ∧ b' = 0 ∧ c' = 1) := by rintro ⟨rfl, rfl, rfl⟩; exact h.clean [] (d' :: v) rfl
    have hcl4 : ¬ (a' = 0 ∧ b' = 0 ∧ c' = 0 ∧ d' = 1) := by rintro ⟨rfl, rfl, rfl, rfl⟩; exact h.clean [0] v rfl
    simp; grind

theorem four_of_length {r : Bytes} (h : 4 ≤ r.length) : ∃ a b c d t, r = a :: b :: c :: d :: t := by
  rcases r with _ | ⟨a, _ | ⟨b, _ | ⟨c, _ | ⟨d, r⟩⟩⟩⟩ <;> simp at h
  exact ⟨a, b, c, d, r, rfl⟩

theorem find_end (mem : Bytes) (offs : Nat) (len : Int) (h : len - 3 ≤ offs) : findStartCode mem offs len = .ok none := by
  rw [findStartCode, dif_neg (by omega)]

theorem find_step (mem : Bytes) (offs : Nat) (len : Int) {a b c d : UInt8} {t : Bytes}
    (h : (offs : Int) < len - 3) (hd : mem.drop offs = a :: b :: c :: d :: t) :
    findStartCode mem offs len = if isCode a b c d then .ok (some offs) else findStartCode mem (offs + 1) len := by
  rw [findStartCode, dif_pos h, hd]

/-- The search runs over a unit. -/
theorem find_unit (mem : Bytes) (len : Int) (hlen : len ≤ mem.length) : ∀ (v tail : Bytes) (offs : Nat),
    mem.drop offs = v ++ tail → v = [] ∨ IsUnit v →
    findStartCode mem offs len = findStartCode mem (offs + v.length) len
  | [], _, _, _, _ => rfl
  | x :: v, tail, offs, hd, h => by
    have hu : IsUnit (x :: v) := by rcases h with h | h; · simp at h
                                    · exact h
    by_cases ho : (offs : Int) < len - 3
    · have h4 : 4 ≤ (mem.drop offs).length := by rw [List.length_drop]; omega
      obtain ⟨a, b, c, d, t, e⟩ := four_of_length h4
      rw [find_step mem offs len ho e, unit_no_code hu (hd.symm.trans e), if_neg (by decide)]
      rw [find_unit mem len hlen v tail (offs + 1) (by rw [← List.drop_drop, hd]; rfl)
        (by by_cases hv : v = []; · exact Or.inl hv
            · exact Or.inr (hu.tail hv))]
      rw [List.length_cons]; congr 1; omega
    · rw [find_end _ _ _ (by omega), find_end _ _ _ (by rw [List.length_cons]; omega)]

/-- At a start code the search stops, if it is allowed to look. -/
theorem find_code (mem : Bytes) (offs : Nat) (len : Int) (hlen : len ≤ mem.length) (b : Bool) (u : Bytes)
    (hd : mem.drop offs = code b ++ u) : findStartCode mem offs len = .ok (if (offs : Int) < len - 3 then some offs else none) := by
  by_cases ho : (offs : Int) < len - 3
  · have h4 : 4 ≤ (mem.drop offs).length := by rw [List.length_drop]; omega
    obtain ⟨a, b', c, d, t, e⟩ := four_of_length h4
    rw [find_step mem offs len ho e, if_pos ho, if_pos]
    rw [hd] at e
    cases b with
    | true =>
      simp only [code, if_true, List.cons_append, List.nil_append, List.cons.injEq] at e
      obtain ⟨rfl, rfl, rfl, rfl, _⟩ := e; rfl
    | false =>
      simp only [code, Bool.false_eq_true, if_false, List.cons_append, List.nil_append, List.cons.injEq] at e
      obtain ⟨rfl, rfl, rfl, _⟩ := e; rfl
  · rw [find_end _ _ _ (by omega), if_neg ho]

theorem annexB_length_cons (b : Bool) (u : Bytes) (r : List (Bool × Bytes)) :
    (annexB ((b, u) :: r)).length = (code b).length + u.length + (annexB r).length := by
  simp [annexB]; omega

theorem unit_pos {u : Bytes} (h : IsUnit u) : 1 ≤ u.length := by
  have := List.length_pos_iff.2 h.ne; omega

/-- Where the search for the end of a unit stops. -/
theorem find_stop (mem : Bytes) (offs : Nat) (b : Bool) (u : Bytes) (r : List (Bool × Bytes)) (hu : IsUnit u)
    (hr : ∀ x ∈ r, IsUnit x.2) (hd : mem.drop offs = annexB ((b, u) :: r)) (ho : offs ≤ mem.length) :
    findStartCode mem (offs + 4) ((mem.length : Int) - 4) =
      .ok (if (annexB r).length ≤ 7 then none else some (offs + (code b).length + u.length)) := by
  have hsz : mem.length = offs + (code b).length + u.length + (annexB r).length := by
    have := congrArg List.length hd
    rw [List.length_drop, annexB_length_cons] at this; omega
  have hpos := unit_pos hu
  have hd' : mem.drop (offs + (code b).length) = u ++ annexB r := by
    rw [← List.drop_drop, hd, annexB, List.append_assoc, List.drop_left]
  have key : findStartCode mem (offs + 4) ((mem.length : Int) - 4) =
      findStartCode mem (offs + (code b).length + u.length) ((mem.length : Int) - 4) := by
    cases b with
    | true => exact find_unit mem _ (by omega) u (annexB r) (offs + 4) hd' (Or.inr hu)
    | false =>
      obtain ⟨x, v, rfl⟩ : ∃ x v, u = x :: v := by
        cases u with
        | nil => exact absurd rfl hu.ne
        | cons x v => exact ⟨x, v, rfl⟩
      rw [find_unit mem _ (by omega) v (annexB r) (offs + 4)
        (by rw [show offs + 4 = offs + 3 + 1 by omega, ← List.drop_drop]
            show List.drop 1 (List.drop (offs + (code false).length) mem) = _
            rw [hd']; rfl)
        (by by_cases hv : v = []; · exact Or.inl hv
            · exact Or.inr (hu.tail hv))]
      congr 1
      simp [code]; omega
  rw [key]
  cases r with
  | nil =>
    have h0 : (annexB []).length = 0 := rfl
    rw [find_end _ _ _ (by omega), if_pos (by omega)]
  | cons y r =>
    obtain ⟨b', v⟩ := y
    have hd2 : mem.drop (offs + (code b).length + u.length) = code b' ++ (v ++ annexB r) := by
      rw [← List.drop_drop, hd', List.drop_left, annexB, List.append_assoc]
    rw [find_code mem _ _ (by omega) b' (v ++ annexB r) hd2]
    by_cases h7 : (annexB ((b', v) :: r)).length ≤ 7
    · rw [if_pos h7, if_neg (by omega)]
    · rw [if_neg h7, if_pos (by omega)]

/-- One unit is copied behind a long start code. -/
theorem copy_unit (mem : Bytes) (offs n cap : Nat) (b : Bool) (u w : Bytes)
    (hd : mem.drop offs = code b ++ u ++ w) (ho : offs ≤ mem.length) (hn : n = u.length) (hpos : 1 ≤ n)
    (hcap : 4 + n ≤ cap) :
    copyUnit mem offs (offs + (code b).length + n) cap = .ok ([0, 0, 0, 1] ++ u) := by
  subst hn
  have hsz : mem.length = offs + (code b).length + u.length + w.length := by
    have := congrArg List.length hd
    rw [List.length_drop, List.length_append, List.length_append] at this; omega
  have h2 : mem[offs + 2]? = (code b ++ u ++ w)[2]? := by
    rw [← hd, List.getElem?_drop]
  have ht : (mem.drop offs).take (offs + (code b).length + u.length - offs) = code b ++ u := by
    rw [hd, show offs + (code b).length + u.length - offs = (code b ++ u).length by simp; omega, List.take_left]
  unfold copyUnit
  cases b with
  | true =>
    have hc : (code true).length = 4 := rfl
    rw [if_pos (by refine ⟨?_, ?_, ?_⟩ <;> omega), h2, if_neg (by simp [code]), if_pos (by omega), ht]
    rfl
  | false =>
    have hc : (code false).length = 3 := rfl
    rw [if_pos (by refine ⟨?_, ?_, ?_⟩ <;> omega), h2, if_pos (by simp [code]), if_pos (by omega), ht]
    rfl

theorem short_last {r : List (Bool × Bytes)} (hr : ∀ x ∈ r, IsUnit x.2) (h : (annexB r).length ≤ 7) :
    r = [] ∨ ∃ b v, r = [(b, v)] := by
  rcases r with _ | ⟨⟨b, v⟩, _ | ⟨⟨b', v'⟩, r⟩⟩
  · exact Or.inl rfl
  · exact Or.inr ⟨b, v, rfl⟩
  · have h1 : 1 ≤ v.length := unit_pos (hr (b, v) (by simp))
    have h2 : 1 ≤ v'.length := unit_pos (hr (b', v') (by simp))
    rw [annexB_length_cons, annexB_length_cons, code_length, code_length] at h
    split at h <;> split at h <;> omega

/-- What is left after the first piece. -/
def after : List (Bool × Bytes) → List (Bool × Bytes)
  | [] => []
  | _ :: r => if (annexB r).length ≤ 7 then [] else r

/-- The first piece. -/
def first : List (Bool × Bytes) → Bytes
  | [] => []
  | (_, u) :: r => if (annexB r).length ≤ 7 then [0, 0, 0, 1] ++ u ++ annexB r else [0, 0, 0, 1] ++ u

theorem pieces_first {l : List (Bool × Bytes)} (hl : l ≠ []) (hr : ∀ x ∈ l, IsUnit x.2) : pieces l = first l :: pieces (after l) := by
  rcases l with _ | ⟨⟨b, u⟩, _ | ⟨⟨b', v⟩, _ | ⟨⟨b2, w⟩, r⟩⟩⟩
  · exact absurd rfl hl
  · simp [pieces, first, after, annexB]
  · simp only [pieces, first, after, annexB, List.append_nil]
    by_cases h : (code b' ++ v).length ≤ 7
    · rw [if_pos h, if_pos h, if_pos h]; rfl
    · rw [if_neg h, if_neg h, if_neg h]; rfl
  · have h7 : ¬ (annexB ((b', v) :: (b2, w) :: r)).length ≤ 7 := by
      intro h
      rcases short_last (fun x hx => hr x (by simp at hx ⊢; grind)) h with h | ⟨_, _, h⟩ <;> simp at h
    rw [pieces]
    · simp only [first, after]; rw [if_neg h7, if_neg h7]
    · simp
    · simp

/-- One turn of the framing. -/
theorem nextPiece_eq (psi : Psi) (mem : Bytes) (own : Bool) (offs cap : Nat) (l : List (Bool × Bytes)) (hl : l ≠ [])
    (hf : psi.needsFraming = true) (hu : ∀ x ∈ l, IsUnit x.2) (hd : mem.drop offs = annexB l) (ho : offs ≤ mem.length)
    (hcap : (annexB l).length + 1 ≤ cap) :
    nextPiece psi ⟨mem, own, mem.length, offs⟩ cap =
      .ok (first l, if after l = [] then none else some (mem.length - (annexB (after l)).length)) := by
  rcases l with _ | ⟨⟨b, u⟩, r⟩
  · exact absurd rfl hl
  have hub : IsUnit u := hu (b, u) (by simp)
  have hur : ∀ x ∈ r, IsUnit x.2 := fun x hx => hu x (by simp [hx])
  have hpos := unit_pos hub
  have hsz : mem.length = offs + (code b).length + u.length + (annexB r).length := by
    have := congrArg List.length hd
    rw [List.length_drop, annexB_length_cons] at this; omega
  have hcl := code_length b
  have hd1 : mem.drop offs = code b ++ u ++ annexB r := hd
  have hcl3 : 3 ≤ (code b).length := by rw [hcl]; split <;> omega
  have hcl4 : (code b).length ≤ 4 := by rw [hcl]; split <;> omega
  rw [annexB_length_cons] at hcap
  unfold nextPiece
  rw [if_pos hf]
  show (findStartCode mem offs mem.length).bind _ = _
  rw [find_code mem offs _ (by omega) b (u ++ annexB r) (by rw [hd1, List.append_assoc]), if_pos (by omega), Outcome.bind_ok]
  show (findStartCode mem (offs + 4) ((mem.length : Int) - 4)).bind _ = _
  rw [find_stop mem offs b u r hub hur hd ho, Outcome.bind_ok]
  by_cases h7 : (annexB r).length ≤ 7
  · rw [if_pos h7]
    show (copyUnit mem offs mem.length cap).bind _ = _
    rw [show mem.length = offs + (code b).length + (u.length + (annexB r).length) by omega,
      copy_unit mem offs _ cap b (u ++ annexB r) [] (by rw [hd1]; simp) ho (by simp) (by omega) (by omega), Outcome.bind_ok]
    have ha : after ((b, u) :: r) = [] := if_pos h7
    have hfi : first ((b, u) :: r) = [0, 0, 0, 1] ++ u ++ annexB r := if_pos h7
    rw [if_pos ha, hfi, List.append_assoc]
  · rw [if_neg h7]
    show (copyUnit mem offs (offs + (code b).length + u.length) cap).bind _ = _
    rw [copy_unit mem offs _ cap b u (annexB r) hd1 ho rfl hpos (by omega), Outcome.bind_ok]
    have ha : after ((b, u) :: r) = r := if_neg h7
    have hfi : first ((b, u) :: r) = [0, 0, 0, 1] ++ u := if_neg h7
    rw [hfi, if_neg (by rw [ha]; rintro rfl; simp [annexB] at h7), ha,
      show offs + (code b).length + u.length = mem.length - (annexB r).length by omega]

end Lms.Demux
