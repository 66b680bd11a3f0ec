import Verif.Json.Model

/-!
# C29, C30: JSON text round-trips
-/

namespace Lms.Json

open Lms

/-! ## C29 -/

theorem getEscaped_some {c e : Char} (h : getEscaped c = some e) : (c, e) ∈ escapes := by
  unfold getEscaped at h
  rw [Option.map_eq_some_iff] at h
  obtain ⟨p, h1, h2⟩ := h
  have h3 := List.find?_some h1
  have h4 := List.mem_of_find?_eq_some h1
  simp only [decide_eq_true_eq] at h3
  rw [← h2, ← h3]; exact h4

theorem getEscaped_none {c : Char} (h : getEscaped c = none) : ∀ p ∈ escapes, p.1 ≠ c := by
  unfold getEscaped at h
  rw [Option.map_eq_none_iff, List.find?_eq_none] at h
  intro p hp hc
  exact h p hp (by simp [hc])

theorem getEscaped_none_ne {c : Char} (h : getEscaped c = none) : c ≠ '\\' ∧ c ≠ '"' ∧ c ≠ '/' ∧ c ≠ '\n' ∧ c ≠ '\t' ∧ c ≠ '\r' ∧
    c ≠ Char.ofNat 8 ∧ c ≠ Char.ofNat 12 := by
  have hn := getEscaped_none h
  have key : ∀ x ∈ escapes.map (·.1), x ≠ c := by
    intro x hx
    rw [List.mem_map] at hx
    obtain ⟨p, h1, h2⟩ := hx
    rw [← h2]; exact hn p h1
  refine ⟨?_, ?_, ?_, ?_, ?_, ?_, ?_, ?_⟩ <;> exact fun hc => key _ (by rw [hc]; decide) rfl

theorem unescape_pair : ∀ p ∈ escapes, getUnescaped '\\' p.2 = some p.1 := by decide

theorem unescape_plain (c : Char) (s : Str) (h : c ≠ '\\') : unescape (c :: s) = c :: unescape s := by
  cases s with
  | nil => rfl
  | cons c2 s => simp [unescape, getUnescaped, h]

/-- **C29.** -/
theorem unescape_escape (s : Str) : unescape (escape s) = s := by
  induction s with
  | nil => rfl
  | cons c s ih =>
    unfold escape
    cases h : getEscaped c with
    | some e =>
      simp only
      rw [unescape, unescape_pair _ (getEscaped_some h)]
      simp only [ih]
    | none =>
      simp only
      rw [unescape_plain c _ (getEscaped_none_ne h).1, ih]

/-- Characters that may not stand in a JSON string as they are. -/
def NeedsEscape (c : Char) : Prop := c = '"' ∨ c = '\n' ∨ c = '\t' ∨ c = '\r' ∨ c = Char.ofNat 8 ∨ c = Char.ofNat 12

/-- Every quote follows a backslash, and the text does not end in one: a reader looking for a bare quote finds the one
written behind the text. -/
def Delimitable (q : Str) : Prop := (∀ pre post, q = pre ++ '"' :: post → pre.getLast? = some '\\') ∧ q.getLast? ≠ some '\\'

/-- **C29, no bare quote and no control character with an escape.** -/
theorem escape_clean (s : Str) : (∀ pre post, escape s = pre ++ '"' :: post → pre.getLast? = some '\\') ∧
    (∀ c ∈ escape s, NeedsEscape c → c = '"') := by
  constructor
  · induction s with
    | nil => intro pre post h; simp [escape] at h
    | cons c s ih =>
      intro pre post h
      unfold escape at h
      cases he : getEscaped c with
      | some e =>
        rw [he] at h
        simp only at h
        match pre, h with
        | [], h => simp at h
        | [x], h =>
          simp only [List.singleton_append, List.cons.injEq] at h
          simp [← h.1]
        | x :: y :: pre, h =>
          simp only [List.cons_append, List.cons.injEq] at h
          have hi := ih pre post h.2.2
          cases hp : pre with
          | nil => rw [hp] at hi; simp at hi
          | cons z pre' =>
            rw [hp] at hi
            rw [List.getLast?_cons_cons, List.getLast?_cons_cons]; exact hi
      | none =>
        rw [he] at h
        simp only at h
        obtain ⟨_, hq, _⟩ := getEscaped_none_ne he
        match pre, h with
        | [], h =>
          simp only [List.nil_append, List.cons.injEq] at h
          exact absurd h.1 hq
        | x :: pre, h =>
          simp only [List.cons_append, List.cons.injEq] at h
          have hi := ih pre post h.2
          cases hp : pre with
          | nil => rw [hp] at hi; simp at hi
          | cons z pre' => rw [hp] at hi; rw [List.getLast?_cons_cons]; exact hi
  · induction s with
    | nil => intro c hc; simp [escape] at hc
    | cons a s ih =>
      intro c hc hn
      unfold escape at hc
      cases he : getEscaped a with
      | some e =>
        rw [he] at hc
        simp only [List.mem_cons] at hc
        have hmem := getEscaped_some he
        have key : ∀ p ∈ escapes, NeedsEscape p.2 → p.2 = '"' := by unfold NeedsEscape; decide
        rcases hc with h | h | h
        · subst h; revert hn; unfold NeedsEscape; decide
        · subst h; exact key _ hmem hn
        · exact ih c h hn
      | none =>
        rw [he] at hc
        simp only [List.mem_cons] at hc
        rcases hc with h | h
        · subst h
          obtain ⟨h1, h2, h3, h4, h5, h6, h7, h8⟩ := getEscaped_none_ne he
          rcases hn with h | h | h | h | h | h
          · exact h
          · exact absurd h h4
          · exact absurd h h5
          · exact absurd h h6
          · exact absurd h h7
          · exact absurd h h8
        · exact ih c h hn

theorem escape_last (s : Str) : (escape s).getLast? = some '\\' ↔ s.getLast? = some '\\' := by
  induction s with
  | nil => simp [escape]
  | cons c s ih =>
    unfold escape
    cases s with
    | nil =>
      cases he : getEscaped c with
      | some e =>
        have key : ∀ p ∈ escapes, (p.2 = '\\' ↔ p.1 = '\\') := by decide
        have := key _ (getEscaped_some he)
        simpa [escape] using this
      | none => simp [escape]
    | cons d s =>
      have hne : escape (d :: s) ≠ [] := by unfold escape; split <;> simp
      obtain ⟨x, y, hxy⟩ := List.exists_cons_of_ne_nil hne
      rw [hxy] at ih
      rw [List.getLast?_cons_cons, hxy]
      cases getEscaped c with
      | some e => simp only; rw [List.getLast?_cons_cons, List.getLast?_cons_cons]; exact ih
      | none => simp only; rw [List.getLast?_cons_cons]; exact ih

theorem escape_delimitable (s : Str) : Delimitable (escape s) ↔ s.getLast? ≠ some '\\' := by
  unfold Delimitable
  rw [ne_eq, escape_last]
  exact ⟨fun h => h.2, fun h => ⟨(escape_clean s).1, h⟩⟩

example : escape "a\"b\\/\n".toList = "a\\\"b\\\\\\/\\n".toList := by decide

/-! ## Delimiting strings -/

/-- `Delimitable` after a character `c0`. -/
def safe (c0 : Char) : Str → Prop
  | [] => c0 ≠ '\\'
  | c :: q => (c = '"' → c0 = '\\') ∧ safe c q

theorem safe_of (q : Str) (c0 : Char) (h1 : ∀ pre post, q = pre ++ '"' :: post → (c0 :: pre).getLast? = some '\\')
    (h2 : (c0 :: q).getLast? ≠ some '\\') : safe c0 q := by
  induction q generalizing c0 with
  | nil => simpa [safe] using h2
  | cons c q ih =>
    refine ⟨?_, ?_⟩
    · intro hc
      have := h1 [] q (by rw [hc]; rfl)
      simpa using this
    · apply ih
      · intro pre post h
        have := h1 (c :: pre) post (by rw [h]; rfl)
        rw [List.getLast?_cons_cons] at this; exact this
      · rw [List.getLast?_cons_cons] at h2; exact h2

theorem delimitable_safe (q : Str) (c0 : Char) (h0 : c0 ≠ '\\') (h : Delimitable q) : safe c0 q := by
  obtain ⟨h1, h2⟩ := h
  apply safe_of
  · intro pre post hq
    have := h1 pre post hq
    cases pre with
    | nil => simp at this
    | cons x pre => rw [List.getLast?_cons_cons]; exact this
  · cases q with
    | nil => simpa using h0
    | cons x q => rw [List.getLast?_cons_cons]; exact h2

/-! ## Removing whitespace -/

def idle : WS := ⟨false, 0, false⟩
def inStr : WS := ⟨false, 0, true⟩

/-- Outside strings, the text `a` becomes `out`, whatever surrounds it. -/
def Strips (a out : Str) : Prop :=
  ∀ c0 rest, c0 ≠ '\\' → ∃ c1, c1 ≠ '\\' ∧ strip c0 idle (a ++ rest) = out ++ strip c1 idle rest

theorem strips_nil : Strips [] [] := fun c0 _ h => ⟨c0, h, rfl⟩

theorem strips_append {a b x y : Str} (h1 : Strips a x) (h2 : Strips b y) : Strips (a ++ b) (x ++ y) := by
  intro c0 rest h0
  obtain ⟨c1, h1', e1⟩ := h1 c0 (b ++ rest) h0
  obtain ⟨c2, h2', e2⟩ := h2 c1 rest h1'
  exact ⟨c2, h2', by rw [List.append_assoc, e1, e2, List.append_assoc]⟩

theorem strips_cons {c : Char} {b x y : Str} (h1 : Strips [c] x) (h2 : Strips b y) : Strips (c :: b) (x ++ y) :=
  strips_append h1 h2

theorem strip_plain (c0 c : Char) (r : Str) (h1 : c ≠ '"') (h2 : c ≠ '/') (h3 : c ≠ '*') :
    strip c0 idle (c :: r) = keep idle c ++ strip c idle r := by
  cases r with
  | nil =>
    by_cases hn : c = '\n'
    · subst hn; simp [strip, idle]
    · simp [strip, h1, hn]
  | cons c2 r =>
    by_cases hn : c = '\n'
    · subst hn; simp [strip, idle]
    · simp [strip, h1, h2, h3, hn, idle]

theorem strips_char (c : Char) (h1 : c ≠ '"') (h2 : c ≠ '/') (h3 : c ≠ '*') (h4 : c ≠ '\\') :
    Strips [c] (if isBlank c then [] else [c]) := by
  intro c0 rest h0
  refine ⟨c, h4, ?_⟩
  rw [List.singleton_append, strip_plain c0 c rest h1 h2 h3]
  simp [keep, idle]

theorem strip_in (c0 c : Char) (r : Str) (h : c = '"' → c0 = '\\') : strip c0 inStr (c :: r) = c :: strip c inStr r := by
  have hc : ¬(c0 ≠ '\\' ∧ c = '"') := fun hh => hh.1 (h hh.2)
  cases r with
  | nil => simp [strip, hc, inStr, keep]
  | cons c2 r => simp [strip, hc, inStr, keep]

theorem strip_open (c0 : Char) (r : Str) (h : c0 ≠ '\\') : strip c0 idle ('"' :: r) = '"' :: strip '"' inStr r := by
  cases r with
  | nil => simp [strip, h, idle, keep]
  | cons c2 r => simp [strip, h, idle, keep, inStr]

theorem strip_close (c0 : Char) (r : Str) (h : c0 ≠ '\\') : strip c0 inStr ('"' :: r) = '"' :: strip '"' idle r := by
  cases r with
  | nil => simp [strip, h, inStr, keep, isBlank]
  | cons c2 r => simp [strip, h, idle, keep, inStr, isBlank]

theorem strip_body (q : Str) (c0 : Char) (r : Str) (h : safe c0 q) :
    strip c0 inStr (q ++ '"' :: r) = q ++ '"' :: strip '"' idle r := by
  induction q generalizing c0 with
  | nil => exact strip_close c0 r h
  | cons c q ih => rw [List.cons_append, strip_in c0 c _ h.1, ih c h.2]; rfl

theorem strips_quoted (q : Str) (h : Delimitable q) : Strips ('"' :: q ++ ['"']) ('"' :: q ++ ['"']) := by
  intro c0 rest h0
  refine ⟨'"', by decide, ?_⟩
  rw [List.append_assoc, List.cons_append, strip_open c0 _ h0]
  rw [show q ++ (['"'] ++ rest) = q ++ '"' :: rest from rfl, strip_body q '"' rest (delimitable_safe q _ (by decide) h)]
  simp

/-! ## Trees that can be written -/

/-- Values in the form the library gives them, except: strings do not end in a backslash and numbers are plain decimals. -/
def GoodVal : VType → Str → Prop
  | .str, s => s.getLast? ≠ some '\\'
  | .num, s => s ≠ [] ∧ s.all isNumber = true
  | .bool, s => s = "true".toList ∨ s = "false".toList
  | .null, s => s = []

mutual
def Good : Node → Prop
  | .val t s => GoodVal t s
  | .arr l => GoodElems l
  | .obj l => GoodMembers l
def GoodElems : List Node → Prop
  | [] => True
  | n :: l => Good n ∧ GoodElems l
def GoodMembers : List (Str × Node) → Prop
  | [] => True
  | (k, n) :: l => Delimitable k ∧ Good n ∧ GoodMembers l
end

/-- The text without any whitespace. -/
def tight : Format := ⟨false, false, false, 0⟩

theorem strips_blanks (l : Str) (h : ∀ c ∈ l, c = '\n' ∨ c = ' ' ∨ c = '\t') : Strips l [] := by
  induction l with
  | nil => exact strips_nil
  | cons c l ih =>
    have := strips_char c
    have hc : Strips [c] [] := by
      rcases h c (by simp) with rfl | rfl | rfl
      · exact strips_char '\n' (by decide) (by decide) (by decide) (by decide)
      · exact strips_char ' ' (by decide) (by decide) (by decide) (by decide)
      · exact strips_char '\t' (by decide) (by decide) (by decide) (by decide)
    exact strips_cons hc (ih fun x hx => h x (by simp [hx]))

theorem sp_blank (f : Format) : Strips f.sp [] := by
  apply strips_blanks
  unfold Format.sp
  intro c hc
  split at hc
  · simp at hc; simp [hc]
  · simp at hc

theorem nl_blank (f : Format) : Strips f.nl [] := by
  unfold Format.nl
  split
  · exact strips_blanks _ (by simp)
  · exact sp_blank f

theorem indent_blank (f : Format) (l : Nat) : Strips (f.indent l) [] := by
  apply strips_blanks
  unfold Format.indent
  intro c hc
  split at hc
  · have := List.eq_of_mem_replicate hc
    rw [this]; split <;> simp
  · simp at hc

theorem number_char (c : Char) (h : isNumber c = true) :
    c ≠ '"' ∧ c ≠ '/' ∧ c ≠ '*' ∧ c ≠ '\\' ∧ isBlank c = false ∧ structural c = none := by
  have conc : ∀ x : Char, x ∉ ['"', '/', '*', '\\', '\n', ' ', '\t', '\r', Char.ofNat 12, '{', '}', '[', ']', ',', ':'] →
      x ≠ '"' ∧ x ≠ '/' ∧ x ≠ '*' ∧ x ≠ '\\' ∧ isBlank x = false ∧ structural x = none := by
    intro x hx
    simp only [List.mem_cons, List.not_mem_nil, or_false, not_or] at hx
    obtain ⟨h1, h2, h3, h4, h5, h6, h7, h8, h9, h10, h11, h12, h13, h14, h15⟩ := hx
    refine ⟨h1, h2, h3, h4, ?_, ?_⟩
    · simp [isBlank, h5, h6, h7, h8, h9]
    · simp [structural, h10, h11, h12, h13, h14, h15]
  apply conc
  intro hm
  have key : ∀ x ∈ ['"', '/', '*', '\\', '\n', ' ', '\t', '\r', Char.ofNat 12, '{', '}', '[', ']', ',', ':'], isNumber x = false := by
    decide
  rw [key c hm] at h
  exact absurd h (by decide)

/-- Characters of a bare value. -/
def Bare (c : Char) : Prop := c ≠ '"' ∧ c ≠ '/' ∧ c ≠ '*' ∧ c ≠ '\\' ∧ isBlank c = false ∧ structural c = none

theorem strips_bare (s : Str) (h : ∀ c ∈ s, Bare c) : Strips s s := by
  induction s with
  | nil => exact strips_nil
  | cons c s ih =>
    obtain ⟨h1, h2, h3, h4, h5, _⟩ := h c (by simp)
    have := strips_char c h1 h2 h3 h4
    rw [h5] at this
    exact strips_cons this (ih fun x hx => h x (by simp [hx]))

instance (c : Char) : Decidable (Bare c) := by unfold Bare; infer_instance

theorem bare_of_good (t : VType) (s : Str) (hg : GoodVal t s) (ht : t ≠ .str) :
    (∀ c ∈ writeValue t s, Bare c) ∧ writeValue t s ≠ [] ∧ interpret (writeValue t s) = some (t, s) := by
  cases t with
  | str => exact absurd rfl ht
  | null =>
    have : s = [] := hg
    subst this
    exact ⟨by show ∀ c ∈ "null".toList, Bare c; decide, by decide, by decide⟩
  | bool =>
    rcases hg with rfl | rfl
    · exact ⟨by show ∀ c ∈ "true".toList, Bare c; decide, by decide, by decide⟩
    · exact ⟨by show ∀ c ∈ "false".toList, Bare c; decide, by decide, by decide⟩
  | num =>
    obtain ⟨h1, h2⟩ := hg
    rw [List.all_eq_true] at h2
    refine ⟨fun c hc => number_char c (h2 c hc), h1, ?_⟩
    show interpret s = _
    have up : ∀ w : Str, (∃ x ∈ w, isNumber x = false ∧ ∀ c, c.toUpper = x → isNumber c = false) → s.map Char.toUpper ≠ w := by
      rintro w ⟨x, hx, _, h4⟩ he
      rw [← he, List.mem_map] at hx
      obtain ⟨c, hc, hcx⟩ := hx
      have := h4 c hcx
      rw [h2 c hc] at this
      exact absurd this (by decide)
    have upper : ∀ c : Char, isNumber c = true → c.toUpper = c := by
      intro c hc
      unfold isNumber at hc
      unfold Char.toUpper
      split
      · rename_i hcond
        exfalso
        simp only [decide_eq_true_eq] at hc
        rcases hc with ⟨a, b⟩ | h | h
        · have b' : c.val ≤ 57 := b
          obtain ⟨c1, c2⟩ := hcond
          have := UInt32.le_trans c1 b'
          exact absurd this (by decide)
        · subst h; exact absurd hcond (by decide)
        · subst h; exact absurd hcond (by decide)
      · rfl
    have no : ∀ w : Str, (∃ x ∈ w, isNumber x = false) → s.map Char.toUpper ≠ w := by
      rintro w ⟨x, hx, hf⟩ he
      have : s.map Char.toUpper = s := by
        conv => rhs; rw [← List.map_id s]
        exact List.map_congr_left fun c hc => upper c (h2 c hc)
      rw [this] at he
      subst he
      rw [h2 x hx] at hf
      exact absurd hf (by decide)
    have n1 := no "NULL".toList ⟨'N', by decide, by decide⟩
    have n2 := no "TRUE".toList ⟨'T', by decide, by decide⟩
    have n3 := no "FALSE".toList ⟨'F', by decide, by decide⟩
    have hall : s.all isNumber = true := by rw [List.all_eq_true]; exact h2
    simp only [interpret, if_neg n1, if_neg n2, if_neg n3, hall, if_true]

theorem strips_value (t : VType) (s : Str) (hg : GoodVal t s) : Strips (writeValue t s) (writeValue t s) := by
  by_cases ht : t = .str
  · subst ht
    exact strips_quoted _ ((escape_delimitable s).2 hg)
  · exact strips_bare _ (bare_of_good t s hg ht).1

/-- Whitespace removal undoes formatting. -/
theorem strip_eq {a x y : Str} (h : Strips a x) (e : x = y) : Strips a y := e ▸ h

theorem tight_nl : tight.nl = [] := rfl
theorem tight_sp : tight.sp = [] := rfl
theorem tight_indent (l : Nat) : tight.indent l = [] := rfl


mutual
theorem strips_write (f : Format) (lv lv' : Nat) : ∀ n : Node, Good n → Strips (write f lv n) (write tight lv' n)
  | .val t s, h => strips_value t s h
  | .arr l, h => by
    simp only [write, tight_nl, tight_indent, List.append_nil]
    have e1 : Strips ['['] ['['] := strips_char '[' (by decide) (by decide) (by decide) (by decide)
    have e2 : Strips [']'] [']'] := strips_char ']' (by decide) (by decide) (by decide) (by decide)
    exact strip_eq (strips_append (strips_append (strips_append (strips_append (strips_append e1 (nl_blank f))
      (strips_elems f lv lv' true l h)) (nl_blank f)) (indent_blank f lv)) e2) (by simp)
  | .obj l, h => by
    simp only [write, tight_nl, tight_indent, List.append_nil]
    have e1 : Strips ['{'] ['{'] := strips_char '{' (by decide) (by decide) (by decide) (by decide)
    have e2 : Strips ['}'] ['}'] := strips_char '}' (by decide) (by decide) (by decide) (by decide)
    exact strip_eq (strips_append (strips_append (strips_append (strips_append (strips_append e1 (nl_blank f))
      (strips_members f lv lv' true l h)) (nl_blank f)) (indent_blank f lv)) e2) (by simp)
theorem strips_elems (f : Format) (lv lv' : Nat) (first : Bool) :
    ∀ l : List Node, GoodElems l → Strips (writeElems f lv first l) (writeElems tight lv' first l)
  | [], _ => strips_nil
  | n :: l, h => by
    simp only [writeElems, tight_nl, tight_indent, List.append_nil]
    have e1 : Strips [','] [','] := strips_char ',' (by decide) (by decide) (by decide) (by decide)
    have e0 : Strips (if first then [] else ',' :: f.nl) (if first then [] else [',']) := by
      cases first
      · exact strip_eq (strips_append e1 (nl_blank f)) (by simp)
      · exact strips_nil
    exact strip_eq (strips_append (strips_append (strips_append e0 (indent_blank f (lv + 1)))
      (strips_write f (lv + 1) (lv' + 1) n h.1)) (strips_elems f lv lv' false l h.2)) (by simp)
theorem strips_members (f : Format) (lv lv' : Nat) (first : Bool) :
    ∀ l : List (Str × Node), GoodMembers l → Strips (writeMembers f lv first l) (writeMembers tight lv' first l)
  | [], _ => strips_nil
  | (k, n) :: l, h => by
    simp only [writeMembers, tight_nl, tight_sp, tight_indent, List.append_nil]
    have e1 : Strips [','] [','] := strips_char ',' (by decide) (by decide) (by decide) (by decide)
    have e2 : Strips [':'] [':'] := strips_char ':' (by decide) (by decide) (by decide) (by decide)
    have e0 : Strips (if first then [] else ',' :: f.nl) (if first then [] else [',']) := by
      cases first
      · exact strip_eq (strips_append e1 (nl_blank f)) (by simp)
      · exact strips_nil
    have := strips_append (strips_append (strips_append (strips_append (strips_append (strips_append e0 (indent_blank f (lv + 1)))
      (strips_quoted k h.1)) e2) (sp_blank f)) (strips_write f (lv + 1) (lv' + 1) n h.2.1)) (strips_members f lv lv' false l h.2.2)
    simpa using this
end

theorem strip_write (f : Format) (n : Node) (h : Good n) :
    strip (Char.ofNat 0) ⟨false, 0, false⟩ (write f 0 n) = write tight 0 n := by
  obtain ⟨c1, _, e⟩ := strips_write f 0 0 n h (Char.ofNat 0) [] (by decide)
  rw [List.append_nil] at e
  rw [show (⟨false, 0, false⟩ : WS) = idle from rfl, e]
  simp [strip]

/-! ## Tokens -/

mutual
/-- The tokens and data of a tree, in reading order. -/
def toks : Node → List Tok × List Datum
  | .val t s => ([.value], [(t, if t = .str then escape s else s)])
  | .arr l => cat (cat ([.arrBegin], []) (toksElems true l)) ([.arrEnd], [])
  | .obj l => cat (cat ([.objBegin], []) (toksMembers true l)) ([.objEnd], [])
def toksElems (first : Bool) : List Node → List Tok × List Datum
  | [] => ([], [])
  | n :: l => cat (cat (if first then ([], []) else ([.sepNode], [])) (toks n)) (toksElems false l)
def toksMembers (first : Bool) : List (Str × Node) → List Tok × List Datum
  | [] => ([], [])
  | (k, n) :: l => cat (cat (cat (if first then ([], []) else ([.sepNode], [])) ([.value, .sepName], [(.str, k)])) (toks n))
      (toksMembers false l)
end

theorem cat_assoc (a b c : List Tok × List Datum) : cat (cat a b) c = cat a (cat b c) := by
  simp [cat, List.append_assoc]

theorem cat_nil (a : List Tok × List Datum) : cat a ([], []) = a := by simp [cat]
theorem nil_cat (a : List Tok × List Datum) : cat ([], []) a = a := by simp [cat]

/-- The text goes on with a structural character, or ends. -/
def Ends (r : Str) : Prop := ∀ c, r.head? = some c → (structural c).isSome

theorem tok_struct (c : Char) (t : Tok) (h : structural c = some t) (buf r : Str) :
    tok none buf (c :: r) = cat (cat (flush buf) ([t], [])) (tok none [] r) := by
  rw [tok.eq_def]; simp only [h]

theorem tok_struct0 (c : Char) (t : Tok) (h : structural c = some t) (r : Str) :
    tok none [] (c :: r) = cat ([t], []) (tok none [] r) := by
  rw [tok_struct c t h]; simp [flush, nil_cat]

theorem tok_bare (a buf r : Str) (h : ∀ c ∈ a, Bare c) (ha : a ≠ []) (hr : Ends r) :
    tok none buf (a ++ r) = cat (flush (buf ++ a)) (tok none [] r) := by
  induction a generalizing buf with
  | nil => exact absurd rfl ha
  | cons c a ih =>
    obtain ⟨h1, _, _, _, _, h6⟩ := h c (by simp)
    rw [List.cons_append, tok.eq_def]
    simp only [h6, if_neg h1]
    by_cases hn : a ++ r = []
    · rw [if_pos hn]
      obtain ⟨ha', hr'⟩ := List.append_eq_nil_iff.1 hn
      subst ha'; subst hr'
      simp [tok, cat_nil]
    · rw [if_neg hn]
      cases a with
      | nil =>
        cases r with
        | nil => exact absurd rfl hn
        | cons d r =>
          have hd := hr d rfl
          obtain ⟨t, ht⟩ := Option.isSome_iff_exists.1 hd
          rw [List.nil_append, tok_struct d t ht, tok_struct0 d t ht, cat_assoc]
      | cons d a =>
        rw [ih (buf ++ [c]) (fun x hx => h x (by simp [hx])) (by simp)]
        rw [List.append_assoc]; rfl

theorem tok_body (q s : Str) (c0 : Char) (buf r : Str) (h : safe c0 q) :
    tok (some (s, c0)) buf (q ++ '"' :: r) =
      cat (cat (cat ([], [(.str, s ++ q)]) (flush buf)) ([.value], [])) (tok none [] r) := by
  induction q generalizing c0 s with
  | nil =>
    have h' : c0 ≠ '\\' := h
    rw [List.nil_append, tok.eq_def]
    simp [h']
  | cons c q ih =>
    have hc : ¬(c0 ≠ '\\' ∧ c = '"') := fun hh => hh.1 (h.1 hh.2)
    rw [List.cons_append, tok.eq_def]
    simp only [if_neg hc]
    rw [ih (s ++ [c]) c h.2, List.append_assoc]; rfl

theorem tok_quoted (q : Str) (h : Delimitable q) (r : Str) :
    tok none [] ('"' :: (q ++ '"' :: r)) = cat ([.value], [(.str, q)]) (tok none [] r) := by
  rw [tok.eq_def]
  simp only [show structural '"' = none by decide, if_true]
  rw [tok_body q [] (Char.ofNat 0) [] r (delimitable_safe q _ (by decide) h)]
  simp [flush, cat]

theorem ends_struct (c : Char) (r : Str) (h : (structural c).isSome) : Ends (c :: r) := by
  intro d hd
  simp only [List.head?_cons, Option.some.injEq] at hd
  rw [← hd]; exact h

theorem tok_value (t : VType) (s : Str) (hg : GoodVal t s) (r : Str) (hr : Ends r) :
    tok none [] (writeValue t s ++ r) = cat (toks (.val t s)) (tok none [] r) := by
  by_cases ht : t = .str
  · subst ht
    have := tok_quoted (escape s) ((escape_delimitable s).2 hg) r
    simp only [writeValue, toks, if_true]
    rw [← this]; simp
  · obtain ⟨h1, h2, h3⟩ := bare_of_good t s hg ht
    rw [tok_bare _ [] r h1 h2 hr]
    simp only [List.nil_append, toks, if_neg ht, flush, if_neg h2, h3]

mutual
theorem tok_write (lv : Nat) (r : Str) (hr : Ends r) : ∀ n : Node, Good n →
    tok none [] (write tight lv n ++ r) = cat (toks n) (tok none [] r)
  | .val t s, h => tok_value t s h r hr
  | .arr l, h => by
    simp only [write, toks, tight_nl, tight_indent, List.append_nil]
    rw [List.append_assoc, List.cons_append, List.singleton_append, List.nil_append, List.cons_append,
      tok_struct0 '[' .arrBegin (by decide), tok_elems lv (']' :: r) (ends_struct _ _ (by decide)) true l h,
      tok_struct0 ']' .arrEnd (by decide)]
    simp only [cat_assoc]
  | .obj l, h => by
    simp only [write, toks, tight_nl, tight_indent, List.append_nil]
    rw [List.append_assoc, List.cons_append, List.singleton_append, List.nil_append, List.cons_append,
      tok_struct0 '{' .objBegin (by decide), tok_members lv ('}' :: r) (ends_struct _ _ (by decide)) true l h,
      tok_struct0 '}' .objEnd (by decide)]
    simp only [cat_assoc]
theorem tok_elems (lv : Nat) (r : Str) (hr : Ends r) (first : Bool) : ∀ l : List Node, GoodElems l →
    tok none [] (writeElems tight lv first l ++ r) = cat (toksElems first l) (tok none [] r)
  | [], _ => by simp [writeElems, toksElems, nil_cat]
  | n :: l, h => by
    have hr' : Ends (writeElems tight lv false l ++ r) := by
      cases l with
      | nil => exact hr
      | cons m l => simp only [writeElems]; exact ends_struct _ _ (by decide)
    simp only [writeElems, toksElems, tight_nl, tight_indent, List.append_nil]
    have e := tok_write (lv + 1) _ hr' n h.1
    rw [tok_elems lv r hr false l h.2] at e
    cases first
    · simp only [Bool.false_eq_true, if_false, List.append_assoc, List.cons_append, List.nil_append]
      rw [tok_struct0 ',' .sepNode (by decide), e]
      simp only [cat_assoc]
    · simp only [if_true, List.nil_append, List.append_assoc]
      rw [e]
      simp only [cat_assoc, nil_cat]
theorem tok_members (lv : Nat) (r : Str) (hr : Ends r) (first : Bool) : ∀ l : List (Str × Node), GoodMembers l →
    tok none [] (writeMembers tight lv first l ++ r) = cat (toksMembers first l) (tok none [] r)
  | [], _ => by simp [writeMembers, toksMembers, nil_cat]
  | (k, n) :: l, h => by
    have hr' : Ends (writeMembers tight lv false l ++ r) := by
      cases l with
      | nil => exact hr
      | cons m l => simp only [writeMembers]; exact ends_struct _ _ (by decide)
    have e := tok_write (lv + 1) _ hr' n h.2.1
    rw [tok_members lv r hr false l h.2.2] at e
    have eq := tok_quoted k h.1 (':' :: (write tight (lv + 1) n ++ (writeMembers tight lv false l ++ r)))
    rw [tok_struct0 ':' .sepName (by decide), e] at eq
    have key : tok none [] ('"' :: (k ++ '"' :: ':' :: (write tight (lv + 1) n ++ (writeMembers tight lv false l ++ r)))) =
        cat ([.value, .sepName], [(.str, k)]) (cat (toks n) (cat (toksMembers false l) (tok none [] r))) := by
      rw [eq]; simp [cat]
    simp only [writeMembers, toksMembers, tight_nl, tight_sp, tight_indent, List.append_nil]
    cases first
    · simp only [Bool.false_eq_true, if_false, List.append_assoc, List.singleton_append, List.cons_append, List.nil_append]
      rw [tok_struct0 ',' .sepNode (by decide), key]
      simp only [cat_assoc]
    · simp only [if_true, List.nil_append, List.append_assoc, List.cons_append]
      rw [key]
      simp only [cat_assoc, nil_cat]
end

/-! ## Assembling -/

theorem assemble_value (root : Node) (m : Str) (p : Node) (s : List (Str × Node)) (name : Str) (ts : List Tok) (d : Datum)
    (ds : List Datum) (h : ts.head? ≠ some .sepName) :
    assemble root ((m, p) :: s) name (.value :: ts) (d :: ds) =
      assemble root ((m, addTo p name (valueOf d)) :: s) [] ts ds := by
  rw [assemble.eq_def]
  split
  all_goals first
    | (rename_i h1 _; simp at h1)
    | skip
  all_goals simp_all

def isVal : Node → Bool
  | .val _ _ => true
  | _ => false

theorem isVal_addTo (p : Node) (name : Str) (n : Node) (h : isVal p = false) : isVal (addTo p name n) = false := by
  cases p with
  | val t s => exact absurd h (by simp [isVal])
  | arr l => rfl
  | obj l => rfl

theorem toks_cons (n : Node) : ∃ t ts ds, toks n = (t :: ts, ds) ∧ t ≠ .sepName := by
  cases n with
  | val t s => exact ⟨_, _, _, rfl, by decide⟩
  | arr l => exact ⟨.arrBegin, (toksElems true l).1 ++ [.arrEnd], _, rfl, by decide⟩
  | obj l => exact ⟨.objBegin, (toksMembers true l).1 ++ [.objEnd], _, rfl, by decide⟩

theorem valueOf_datum (t : VType) (s : Str) : valueOf (t, if t = .str then escape s else s) = .val t s := by
  unfold valueOf
  by_cases h : t = .str
  · subst h; simp [unescape_escape]
  · simp [h]

mutual
theorem asm_node (root : Node) (s : List (Str × Node)) (m : Str) : ∀ (n : Node) (p : Node) (name : Str) (ts : List Tok)
    (ds : List Datum), isVal p = false → ts.head? ≠ some .sepName →
    assemble root ((m, p) :: s) name ((toks n).1 ++ ts) ((toks n).2 ++ ds) =
      assemble root ((m, addTo p name n) :: s) [] ts ds
  | .val t v, p, name, ts, ds, hp, hts => by
    simp only [toks, List.singleton_append]
    rw [assemble_value root m p s name ts _ ds hts, valueOf_datum]
  | .arr l, p, name, ts, ds, hp, hts => by
    simp only [toks, cat, List.singleton_append, List.nil_append, List.append_nil, List.cons_append, List.append_assoc]
    rw [assemble.eq_def]
    simp only
    rw [asm_elems root ((m, p) :: s) name true l [] (.arrEnd :: ts) ds (by simp), assemble.eq_def]
    cases p with
    | val t v => exact absurd hp (by simp [isVal])
    | arr l' => simp
    | obj l' => simp
  | .obj l, p, name, ts, ds, hp, hts => by
    simp only [toks, cat, List.singleton_append, List.nil_append, List.append_nil, List.cons_append, List.append_assoc]
    rw [assemble.eq_def]
    simp only
    rw [asm_members root ((m, p) :: s) name true l [] (.objEnd :: ts) ds (by simp), assemble.eq_def]
    cases p with
    | val t v => exact absurd hp (by simp [isVal])
    | arr l' => simp
    | obj l' => simp
termination_by structural n => n
theorem asm_elems (root : Node) (s : List (Str × Node)) (m : Str) (first : Bool) : ∀ (l acc : List Node) (ts : List Tok)
    (ds : List Datum), ts.head? ≠ some .sepName →
    assemble root ((m, .arr acc) :: s) [] ((toksElems first l).1 ++ ts) ((toksElems first l).2 ++ ds) =
      assemble root ((m, .arr (acc ++ l)) :: s) [] ts ds
  | [], acc, ts, ds, hts => by simp [toksElems]
  | n :: l, acc, ts, ds, hts => by
    have hts' : ((toksElems false l).1 ++ ts).head? ≠ some .sepName := by
      cases l with
      | nil => simpa [toksElems] using hts
      | cons m l => simp [toksElems, cat]
    have e := asm_node root s m n (.arr acc) [] ((toksElems false l).1 ++ ts) ((toksElems false l).2 ++ ds) rfl hts'
    rw [show addTo (.arr acc) [] n = .arr (acc ++ [n]) from rfl, asm_elems root s m false l (acc ++ [n]) ts ds hts,
      List.append_assoc, List.singleton_append] at e
    rw [← e]
    cases first
    · simp only [toksElems, cat, Bool.false_eq_true, if_false, List.append_assoc, List.singleton_append, List.nil_append,
        List.cons_append]
      rw [assemble.eq_def]
    · simp only [toksElems, cat, if_true, List.append_assoc, List.nil_append]
termination_by structural l => l
theorem asm_members (root : Node) (s : List (Str × Node)) (m : Str) (first : Bool) : ∀ (l acc : List (Str × Node))
    (ts : List Tok) (ds : List Datum), ts.head? ≠ some .sepName →
    assemble root ((m, .obj acc) :: s) [] ((toksMembers first l).1 ++ ts) ((toksMembers first l).2 ++ ds) =
      assemble root ((m, .obj (acc ++ l)) :: s) [] ts ds
  | [], acc, ts, ds, hts => by simp [toksMembers]
  | (k, n) :: l, acc, ts, ds, hts => by
    have hts' : ((toksMembers false l).1 ++ ts).head? ≠ some .sepName := by
      cases l with
      | nil => simpa [toksMembers] using hts
      | cons m l => simp [toksMembers, cat]
    have e := asm_node root s m n (.obj acc) k ((toksMembers false l).1 ++ ts) ((toksMembers false l).2 ++ ds) rfl hts'
    rw [show addTo (.obj acc) k n = .obj (acc ++ [(k, n)]) from rfl, asm_members root s m false l (acc ++ [(k, n)]) ts ds hts,
      List.append_assoc, List.singleton_append] at e
    rw [← e]
    cases first
    · simp only [toksMembers, cat, Bool.false_eq_true, if_false, List.append_assoc, List.cons_append, List.nil_append]
      rw [assemble.eq_def]
      simp only
      rw [assemble.eq_def]
      simp
    · simp only [toksMembers, cat, if_true, List.append_assoc, List.cons_append, List.nil_append]
      rw [assemble.eq_def]
      simp
termination_by structural l => l
end

/-! ## C30 -/

/-- The empty node of the type of a tree, into which a text is parsed. -/
def blankOf : Node → Node
  | .val _ _ => .val .null []
  | .arr _ => .arr []
  | .obj _ => .obj []

/-- **C30.** -/
theorem parse_write (f : Format) (n : Node) (h : Good n) : parse (blankOf n) (write f 0 n) = .ok (true, n) := by
  unfold parse
  rw [strip_write f n h]
  have e := tok_write 0 [] (by intro c hc; simp at hc) n h
  rw [List.append_nil] at e
  have e' : tok none [] (write tight 0 n) = toks n := by rw [e]; simp [tok, cat_nil]
  simp only [e']
  cases n with
  | val t s =>
    simp only [toks, blankOf]
    rw [assemble.eq_def]
    simp only [valueOf_datum]
    rw [assemble.eq_def]
    simp [rootOf]
  | arr l =>
    simp only [toks, blankOf, cat, List.singleton_append, List.nil_append, List.append_nil, List.cons_append]
    rw [assemble.eq_def]
    simp only
    have := asm_elems (.arr []) [] [] true l [] [.arrEnd] [] (by simp)
    rw [List.append_nil] at this
    rw [this, assemble.eq_def]
    simp only
    rw [assemble.eq_def]
    simp [rootOf]
  | obj l =>
    simp only [toks, blankOf, cat, List.singleton_append, List.nil_append, List.append_nil, List.cons_append]
    rw [assemble.eq_def]
    simp only
    have := asm_members (.obj []) [] [] true l [] [.objEnd] [] (by simp)
    rw [List.append_nil] at this
    rw [this, assemble.eq_def]
    simp only
    rw [assemble.eq_def]
    simp [rootOf]

/-- **C30, the kind of the document.** The text announces the kind of node it was written from. -/
theorem determineType_write (f : Format) (n : Node) (h : Good n) : determineType (write f 0 n) = blankOf n := by
  unfold determineType
  rw [strip_write f n h]
  cases n with
  | arr l => simp [write, blankOf]
  | obj l => simp [write, blankOf]
  | val t s =>
    simp only [write, blankOf]
    by_cases ht : t = .str
    · subst ht; simp [writeValue]
    · obtain ⟨h1, h2, _⟩ := bare_of_good t s h ht
      cases hw : writeValue t s with
      | nil => exact absurd hw h2
      | cons c w =>
        rw [hw] at h1
        have := (h1 c (by simp)).2.2.2.2.2
        split
        · rename_i _ _ heq; simp only [List.cons.injEq] at heq; rw [heq.1] at this; exact absurd this (by decide)
        · rename_i _ _ heq; simp only [List.cons.injEq] at heq; rw [heq.1] at this; exact absurd this (by decide)
        · rfl

/-- Written documents determine their trees. -/
theorem write_injective (f g : Format) (m n : Node) (hm : Good m) (hn : Good n) (h : write f 0 m = write g 0 n) : m = n := by
  have e1 := determineType_write f m hm
  have e2 := determineType_write g n hn
  rw [h, e2] at e1
  have p1 := parse_write f m hm
  have p2 := parse_write g n hn
  rw [h, ← e1, p2] at p1
  simp only [Outcome.ok.injEq, Prod.mk.injEq, true_and] at p1
  exact p1.symm

/-- A tree with nested containers, an empty object, an escaped string and a negative number. -/
def sample : Node := .obj [("a".toList, .arr [.val .num "-1.5".toList, .obj [], .val .str "x\"/\\\n y".toList]),
  ("k\\\"".toList, .val .bool "true".toList), ([], .val .null [])]

theorem sample_good : Good sample := by
  refine ⟨?_, ⟨⟨by decide, by decide⟩, trivial, by show _ ≠ _; decide, trivial⟩, ?_, Or.inl rfl, ?_, rfl, trivial⟩
  · exact ⟨by intro pre post h; match pre, h with
      | [], h => simp at h
      | [_], h => simp at h
      | _ :: _ :: _, h => simp at h, by decide⟩
  · refine ⟨?_, by decide⟩
    intro pre post h
    match pre, h with
    | [], h => simp at h
    | [_], h => simp at h
    | [a, b], h => simp at h; obtain ⟨_, rfl, _⟩ := h; rfl
    | _ :: _ :: _ :: _, h => simp at h
  · exact ⟨by intro pre post h; simp at h, by decide⟩

example : parse (.obj []) (write ⟨true, true, true, 1⟩ 0 sample) = .ok (true, sample) := parse_write _ _ sample_good

/-! ### Recorded exceptions -/

/-- `Outcome` has no decidable equality: what a parse gave, as a comparison. -/
def gives (o : Outcome (Bool × Node)) (b : Bool) (text : Str) : Bool :=
  match o with
  | .ok (x, n) => x == b && write tight 0 n == text
  | _ => false

/-- A string that ends in a backslash is not read back: its closing quote is taken for an escaped one. -/
theorem backslash_end_lost :
    gives (parse (.arr []) (write tight 0 (.arr [.val .str ['\\'], .val .str ['b']]))) true
      (write tight 0 (.arr [.val .str ['\\'], .val .str ['b']])) = false := by decide +kernel

/-- A key that contains a quote is written unescaped and breaks the document. -/
theorem quote_in_key_lost :
    gives (parse (.obj []) (write tight 0 (.obj [("a\"b".toList, .val .num ['1'])]))) true
      (write tight 0 (.obj [("a\"b".toList, .val .num ['1'])])) = false := by decide +kernel

/-- A number in exponent notation, which `Set(double)` produces for large values, is refused. -/
theorem exponent_refused :
    gives (parse (.arr []) (write tight 0 (.arr [.val .num "1e+06".toList]))) false "[]".toList = true := by decide +kernel

/-- A text that ends before its object does is accepted. -/
theorem unclosed_accepted : gives (parse (.obj []) "{\"a\":1,".toList) true "{\"a\":1}".toList = true := by decide +kernel

/-- A second document in the same text is merged into the first. -/
theorem two_documents_merged :
    gives (parse (.obj []) "{\"a\":1}{\"b\":2}".toList) true "{\"a\":1,\"b\":2}".toList = true := by decide +kernel

/-- Giving a string to a `Value` interprets escapes in it: the two characters backslash and `n` become a line break. -/
theorem construction_unescapes : ofString "a\\nb".toList = .val .str "a\nb".toList := by
  unfold ofString
  rw [show unescape "a\\nb".toList = "a\nb".toList by decide]

/-- Strings without a backslash are stored as given. -/
theorem ofString_plain (s : Str) (h : '\\' ∉ s) : ofString s = .val .str s := by
  have : unescape s = s := by
    induction s with
    | nil => rfl
    | cons c s ih =>
      rw [unescape_plain c s (fun hc => h (by simp [hc])), ih (fun hm => h (by simp [hm]))]
  unfold ofString
  rw [this]

/-! ## Comments -/

theorem strip_line (body : Str) (h : ∀ c ∈ body, c ≠ '"' ∧ c ≠ '/' ∧ c ≠ '*' ∧ c ≠ '\n') (rest : Str) : ∀ c0,
    strip c0 ⟨true, 0, false⟩ (body ++ '\n' :: rest) = strip '\n' idle rest := by
  induction body with
  | nil =>
    intro c0
    cases rest with
    | nil => simp [strip, keep, idle, isBlank]
    | cons c r => simp [strip, keep, idle, isBlank]
  | cons b body ih =>
    intro c0
    obtain ⟨h1, h2, h3, h4⟩ := h b (by simp)
    have ih' := ih (fun c hc => h c (by simp [hc])) b
    cases hb : body ++ '\n' :: rest with
    | nil => simp at hb
    | cons c2 r =>
      rw [List.cons_append, hb]
      rw [hb] at ih'
      rw [← ih']
      simp [strip, h1, h2, h3, h4, keep]

theorem strip_block (body : Str) (h : ∀ c ∈ body, c ≠ '"' ∧ c ≠ '/' ∧ c ≠ '*') (rest : Str) : ∀ c0,
    strip c0 ⟨false, 1, false⟩ (body ++ '*' :: '/' :: rest) = strip '/' idle rest := by
  induction body with
  | nil => intro c0; simp [strip, idle]
  | cons b body ih =>
    intro c0
    obtain ⟨h1, h2, h3⟩ := h b (by simp)
    have ih' := ih (fun c hc => h c (by simp [hc])) b
    cases hb : body ++ '*' :: '/' :: rest with
    | nil => simp at hb
    | cons c2 r =>
      rw [List.cons_append, hb]
      rw [hb] at ih'
      rw [← ih']
      by_cases hn : b = '\n'
      · subst hn; simp [strip, keep]
      · simp [strip, h1, h2, h3, hn, keep]

/-- A comment to the end of the line, or one with an end, without quotes, slashes and stars in it. -/
inductive Comment : Str → Prop where
  | line (body : Str) (h : ∀ c ∈ body, c ≠ '"' ∧ c ≠ '/' ∧ c ≠ '*' ∧ c ≠ '\n') : Comment ('/' :: '/' :: (body ++ ['\n']))
  | block (body : Str) (h : ∀ c ∈ body, c ≠ '"' ∧ c ≠ '/' ∧ c ≠ '*') : Comment ('/' :: '*' :: (body ++ ['*', '/']))

theorem comment_strips (c : Str) (h : Comment c) : Strips c [] := by
  intro c0 rest h0
  cases h with
  | line body h =>
    refine ⟨'\n', by decide, ?_⟩
    rw [List.nil_append, ← strip_line body h rest '/']
    simp [strip, idle, h0]
  | block body h =>
    refine ⟨'/', by decide, ?_⟩
    rw [List.nil_append, ← strip_block body h rest '*']
    simp [strip, idle, h0]

/-- **C30.** Comments before and after a document make no difference. -/
theorem comments_ignored (f : Format) (n : Node) (h : Good n) (before after : Str) (hb : Comment before) (ha : Comment after) :
    parse (blankOf n) (before ++ write f 0 n ++ after) = .ok (true, n) ∧ determineType (before ++ write f 0 n ++ after) = blankOf n := by
  have hw := strips_write f 0 0 n h
  have key : strip (Char.ofNat 0) ⟨false, 0, false⟩ (before ++ write f 0 n ++ after) = strip (Char.ofNat 0) ⟨false, 0, false⟩ (write f 0 n) := by
    obtain ⟨c, _, e⟩ := strips_append (strips_append (comment_strips _ hb) hw) (comment_strips _ ha) (Char.ofNat 0) [] (by decide)
    obtain ⟨d, _, e'⟩ := hw (Char.ofNat 0) [] (by decide)
    rw [List.append_nil] at e e'
    show strip _ idle _ = strip _ idle _
    rw [e, e']
    simp [strip]
  constructor
  · unfold parse; rw [key]; exact parse_write f n h
  · unfold determineType; rw [key]; exact determineType_write f n h

/-- **C29 (recorded).** A quotation mark in a comment counts: what follows is lost with the comment. -/
theorem quote_in_comment_lost : gives (parse (.obj []) "{\"a\":1, // the \" of it\n\"b\":2}".toList) true "{\"a\":1}".toList = true := by decide +kernel

example : Comment "// first\n".toList := .line " first".toList (by decide)
example : Comment "/* last */".toList := .block " last ".toList (by decide)

/-- **C30.** Blanks, tabs, line feeds, carriage returns and form feeds before and after a document are skipped. -/
theorem blanks_ignored (f : Format) (n : Node) (h : Good n) (before after : Str)
    (hb : ∀ c ∈ before, c ∈ [' ', '\t', '\n', '\r', Char.ofNat 12]) (ha : ∀ c ∈ after, c ∈ [' ', '\t', '\n', '\r', Char.ofNat 12]) :
    parse (blankOf n) (before ++ write f 0 n ++ after) = .ok (true, n) := by
  have bl : ∀ l : Str, (∀ c ∈ l, c ∈ [' ', '\t', '\n', '\r', Char.ofNat 12]) → Strips l [] := by
    intro l
    induction l with
    | nil => intro _; exact strips_nil
    | cons c r ih =>
      intro hl
      have hc : Strips [c] [] := by
        have hm := hl c (by simp)
        simp only [List.mem_cons, List.not_mem_nil, or_false] at hm
        rcases hm with h | h | h | h | h <;> subst h <;> exact strips_char _ (by decide) (by decide) (by decide) (by decide)
      exact strips_append hc (ih fun x hx => hl x (by simp [hx]))
  have hw := strips_write f 0 0 n h
  have key : strip (Char.ofNat 0) ⟨false, 0, false⟩ (before ++ write f 0 n ++ after) = strip (Char.ofNat 0) ⟨false, 0, false⟩ (write f 0 n) := by
    obtain ⟨c, _, e⟩ := strips_append (strips_append (bl _ hb) hw) (bl _ ha) (Char.ofNat 0) [] (by decide)
    obtain ⟨d, _, e'⟩ := hw (Char.ofNat 0) [] (by decide)
    rw [List.append_nil] at e e'
    show strip _ idle _ = strip _ idle _
    rw [e, e']
    simp [strip]
  unfold parse; rw [key]; exact parse_write f n h

example : ∀ c ∈ " \r\n".toList, c ∈ [' ', '\t', '\n', '\r', Char.ofNat 12] := by decide

/-- Tabs or spaces, as asked for. -/
example : write ⟨true, true, true, 1⟩ 0 (.obj [("a".toList, .arr [.val .num "1".toList])]) =
    "{\n\t\"a\": [\n\t\t1\n\t]\n}".toList := by decide +kernel
example : write ⟨true, true, false, 2⟩ 0 (.obj [("a".toList, .arr [.val .num "1".toList])]) =
    "{\n  \"a\": [\n    1\n  ]\n}".toList := by decide +kernel

end Lms.Json
