import Verif.Sdp.Lemmas

/-!
# C61: renaming a session keeps the rest of its description
-/

namespace Lms.Sdp

/-- Text made of lines ended by carriage return and newline. -/
def crlf (ls : List Str) : Str := ls.flatMap (· ++ ['\r', '\n'])

theorem getlines_line {a : Str} (h : '\n' ∉ a) (cur s : Str) : getlines cur (a ++ '\n' :: s) = (cur ++ a) :: getlines [] s := by
  induction a generalizing cur with
  | nil => simp [getlines]
  | cons x a ih =>
    have h1 : x ≠ '\n' := fun e => h (by simp [e])
    have h2 : '\n' ∉ a := fun e => h (List.mem_cons_of_mem _ e)
    rw [List.cons_append, getlines, if_neg h1, ih h2]
    simp

theorem getlines_last (cur : Str) {a : Str} (h : '\n' ∉ a) : getlines cur a = if cur ++ a = [] then [] else [cur ++ a] := by
  induction a generalizing cur with
  | nil => simp [getlines]
  | cons x a ih =>
    have h1 : x ≠ '\n' := fun e => h (by simp [e])
    have h2 : '\n' ∉ a := fun e => h (List.mem_cons_of_mem _ e)
    rw [getlines, if_neg h1, ih _ h2]
    simp

theorem getlines_crlf {ls : List Str} (h : ∀ l ∈ ls, '\n' ∉ l ∧ '\r' ∉ l) (t : Str) :
    getlines [] (crlf ls ++ t) = ls.map (· ++ ['\r']) ++ getlines [] t := by
  induction ls with
  | nil => rfl
  | cons l ls ih =>
    have e : crlf (l :: ls) ++ t = (l ++ ['\r']) ++ '\n' :: (crlf ls ++ t) := by simp [crlf]
    have hl : '\n' ∉ l ++ ['\r'] := by
      rw [List.mem_append, not_or]; exact ⟨(h l (by simp)).1, by decide⟩
    rw [e, getlines_line hl, ih (fun x hx => h x (List.mem_cons_of_mem _ hx))]
    rfl

theorem getlines_lf {ls : List Str} (h : ∀ l ∈ ls, '\n' ∉ l) : getlines [] (unl ls) = ls := by
  induction ls with
  | nil => rfl
  | cons l ls ih =>
    rw [unl_cons, getlines_line (h l (by simp)), ih (fun x hx => h x (List.mem_cons_of_mem _ hx))]
    rfl

theorem prefix_cr {l : Str} : "s=".toList <+: l ++ ['\r'] ↔ "s=".toList <+: l := by
  match l with
  | [] => decide
  | [x] =>
    constructor
    · intro h
      have h1 := (List.cons_prefix_cons.mp h).2
      exact absurd (List.cons_prefix_cons.mp h1).1 (by decide)
    · rintro ⟨t, ht⟩
      have := congrArg List.length ht
      simp at this
  | x :: y :: l =>
    constructor
    · intro h
      obtain ⟨h1, h2⟩ := List.cons_prefix_cons.mp h
      obtain ⟨h3, h4⟩ := List.cons_prefix_cons.mp h2
      subst h1 h3
      exact ⟨l, rfl⟩
    · rintro ⟨t, ht⟩
      exact ⟨t ++ ['\r'], by rw [← List.append_assoc, ht]⟩

theorem lines2_lf {a : Str} (h : '\n' ∉ a ∧ '\r' ∉ a) (s : Str) : lines2 (a ++ '\n' :: s) = [a].filter (fun l => l ≠ []) ++ lines2 s := by
  rw [lines2, cut_append h.1, List.flatMap_cons, cut_free h.2, List.filter_append]; rfl

theorem lines2_cr {a : Str} (h : '\n' ∉ a ∧ '\r' ∉ a) (s : Str) : lines2 (a ++ '\r' :: s) = [a].filter (fun l => l ≠ []) ++ lines2 s := by
  have key : ∀ (a : Str), '\n' ∉ a → ∀ p ps, cut '\n' s = p :: ps → cut '\n' (a ++ '\r' :: s) = (a ++ '\r' :: p) :: ps := by
    intro a
    induction a with
    | nil => intro _ p ps hc; rw [List.nil_append, cut, if_neg (by decide), hc]; rfl
    | cons x a ih =>
      intro hx p ps hc
      have h1 : x ≠ '\n' := fun e => hx (by simp [e])
      rw [List.cons_append, cut, if_neg h1, ih (fun e => hx (List.mem_cons_of_mem _ e)) p ps hc]
      rfl
  cases hc : cut '\n' s with
  | nil => exact absurd hc (cut_ne_nil _ _)
  | cons p ps =>
    rw [lines2, key a h.1 p ps hc, List.flatMap_cons, cut_append h.2, lines2, hc, List.flatMap_cons, List.cons_append,
      show a :: (cut '\r' p ++ ps.flatMap (cut '\r')) = [a] ++ (cut '\r' p ++ ps.flatMap (cut '\r')) from rfl, List.filter_append]

/-- C61: in a description whose lines end as the standard says (carriage return, newline; the last may lack them), the
lines holding the name are replaced, and every other line is there, unchanged and in its place. -/
theorem rename_keeps_lines (ls : List Str) (last name : Str) (h : ∀ l ∈ ls ++ [last], '\n' ∉ l ∧ '\r' ∉ l) (hn : '\n' ∉ name ∧ '\r' ∉ name) :
    lines2 (rename (crlf ls ++ last) name) =
      ((ls ++ [last]).map fun l => if "s=".toList <+: l then "s=".toList ++ name else l).filter fun l => l ≠ [] := by
  have hf : '\n' ∉ "s=".toList ++ name ∧ '\r' ∉ "s=".toList ++ name := by
    rw [List.mem_append, List.mem_append, not_or, not_or]
    exact ⟨⟨by decide, hn.1⟩, by decide, hn.2⟩
  unfold rename
  rw [getlines_crlf (fun l hl => h l (by simp [hl])), List.map_append, List.map_map]
  induction ls with
  | nil =>
    have hl := h last (by simp)
    rw [getlines_last _ hl.1, List.map_nil, List.nil_append, List.nil_append, List.nil_append]
    by_cases h0 : last = []
    · subst h0; rw [if_pos rfl]; rfl
    · rw [if_neg h0, List.map_singleton, List.map_singleton, List.flatten_singleton]
      by_cases hs : "s=".toList <+: last
      · rw [if_pos hs, if_pos hs]
        have := lines2_lf hf []
        rw [show "s=".toList ++ name ++ "\n".toList = "s=".toList ++ name ++ '\n' :: [] from rfl, this]
        simp [show lines2 [] = [] by decide]
      · rw [if_neg hs, if_neg hs, lines2, cut_free hl.1, List.flatMap_singleton, cut_free hl.2]
  | cons l ls ih =>
    have ih := ih fun x hx => h x (List.mem_cons_of_mem _ hx)
    rw [List.map_cons, List.cons_append, List.flatten_cons, List.cons_append, List.map_cons]
    generalize (List.map _ ls ++ _).flatten = rest at ih ⊢
    simp only [Function.comp, prefix_cr]
    by_cases hs : "s=".toList <+: l
    · rw [if_pos hs, if_pos hs]
      rw [show "s=".toList ++ name ++ "\n".toList ++ rest = "s=".toList ++ name ++ '\n' :: rest by simp,
        lines2_lf hf, ih, ← List.filter_append]
      rfl
    · rw [if_neg hs, if_neg hs]
      rw [List.append_assoc, List.singleton_append, lines2_cr (h l (by simp)), ih, ← List.filter_append]
      rfl

/-- A description from a server. -/
def serverLines : List Str := ["v=0".toList, "o=- 1 1 IN IP4 10.0.0.2".toList, "s=Session streamed by X".toList, "t=0 0".toList, "a=control:*".toList, "m=video 0 RTP/AVP 96".toList]

/-- The hypotheses hold and the name is the only thing changed. -/
theorem rename_example : (∀ l ∈ serverLines ++ ["a=x".toList], '\n' ∉ l ∧ '\r' ∉ l) ∧ lines2 (rename (crlf serverLines ++ "a=x".toList) "cam1".toList) =
    ["v=0".toList, "o=- 1 1 IN IP4 10.0.0.2".toList, "s=cam1".toList, "t=0 0".toList, "a=control:*".toList, "m=video 0 RTP/AVP 96".toList, "a=x".toList] := by
  constructor
  · decide
  · decide +kernel

/-- C61, recorded: when the lines end with a newline alone, what lies between two names runs together into one line. -/
theorem lf_lines_run_together (ls : List Str) (name : Str) (h : ∀ l ∈ ls, '\n' ∉ l) (hs : ∀ l ∈ ls, ¬("s=".toList <+: l)) :
    rename (unl ls) name = ls.flatten := by
  unfold rename
  rw [getlines_lf h]
  congr 1
  conv => rhs; rw [← List.map_id ls]
  apply List.map_congr_left
  intro l hl
  rw [if_neg (hs l hl)]; rfl

/-- The session of the example, with newlines alone, has three lines afterwards. -/
theorem lf_loses_media : lines2 (rename (unl serverLines) "cam1".toList) =
    ["v=0o=- 1 1 IN IP4 10.0.0.2s=cam1".toList, "t=0 0a=control:*m=video 0 RTP/AVP 96".toList] := by decide +kernel

end Lms.Sdp
