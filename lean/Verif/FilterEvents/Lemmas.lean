import Verif.Control.Props
import Verif.FilterEvents.Spec

/-!
# Reading by the handlers and reading by the table
-/

namespace Lms.FilterEvents

open Lms Lms.Json Lms.Control

/-- The conversion used for a type. -/
def Ty.conv : Ty → Node → R Val
  | .int => toNum
  | .flt => toFlt
  | .bool => toBool
  | .text => toText
  | .ints => fun n => match n with
    | .arr l => (toInts l).bind fun z => .ok (.ints z)
    | _ => .dies

theorem conv_eq (t : Ty) (n : Node) : t.conv n = match t.value n with | some v => .ok v | none => .dies := by
  cases t with
  | int =>
    show (toInt n).bind _ = _
    rw [toInt_eq]
    show _ = match (intOf n).map Val.int with | some v => _ | none => _
    cases intOf n <;> rfl
  | flt => cases n with
    | val t s => cases t <;> rfl
    | arr l => rfl
    | obj l => rfl
  | bool => cases n with
    | val t s => cases t <;> rfl
    | arr l => rfl
    | obj l => rfl
  | text =>
    show (toStr n).bind _ = _
    rw [toStr_eq]
    show _ = match (textOf n).map Val.text with | some v => _ | none => _
    cases textOf n <;> rfl
  | ints => cases n with
    | val t s => cases t <;> rfl
    | obj l => rfl
    | arr l =>
      show (toInts l).bind _ = _
      rw [toInts_eq]
      show _ = match (allSome (l.map intOf)).map Val.ints with | some v => _ | none => _
      cases allSome (l.map intOf) <;> rfl

/-- A parameter read by the table, as a computation. -/
def readPar (p : Node) (q : Par) : R (Option Val) := if q.ends p then .dies else .ok (q.read p)

/-- All of them one after the other. -/
def readAll (p : Node) : List Par → R Args
  | [] => .ok []
  | q :: qs => (readPar p q).bind fun v => (readAll p qs).bind fun vs => .ok (v :: vs)

theorem readAll_eq (p : Node) (qs : List Par) :
    readAll p qs = if qs.any (·.ends p) then .dies else .ok (qs.map (·.read p)) := by
  induction qs with
  | nil => rfl
  | cons q qs ih =>
    simp only [readAll, readPar, List.any_cons, List.map_cons]
    cases q.ends p with
    | true => rfl
    | false =>
      simp only [Bool.false_or, Bool.false_eq_true, if_false, bind_ok, ih]
      split <;> rfl

/-- A verdict as the result of a handler. -/
def Verdict.res : Verdict → Res
  | .ends => .dies
  | .undefined => .ub
  | .refused => .ok none
  | .takes a => .ok (some a)

theorem meets_res {r : Res} {v : Verdict} (h : r = v.res) : Meets r v := by
  subst h
  cases v <;> simp [Verdict.res, Meets]

theorem res_of_meets {r : Res} {v : Verdict} (h : Meets r v) : r = v.res := by
  cases v <;> cases r with
  | ok o => cases o <;> simp_all [Verdict.res, Meets]
  | dies => simp_all [Verdict.res, Meets]
  | ub => simp_all [Verdict.res, Meets]

theorem form_res (f : Form) (l : List (Str × Node)) :
    (f.read (some (.obj l))).res =
      if f.pars.any (·.refuses (.obj l)) then .ok none else (readAll (.obj l) f.pars).bind fun a => .ok (f.whole a) := by
  rw [readAll_eq]
  simp only [Form.read]
  by_cases h1 : f.pars.any (·.refuses (.obj l)) = true
  · rw [if_pos h1, if_pos h1]; rfl
  · rw [if_neg h1, if_neg h1]
    by_cases h2 : f.pars.any (·.ends (.obj l)) = true
    · rw [if_pos h2, if_pos h2]; rfl
    · rw [if_neg h2, if_neg h2, bind_ok]
      cases f.whole (f.pars.map (·.read (.obj l))) <;> rfl

theorem take_eq (l : List (Str × Node)) (k : String) (t : Ty) (h : (member k (.obj l)).isSome = true) (w : Wrong) (hw : w ≠ .ignored)
    (b : Bool) : take (.obj l) k t.conv = readPar (.obj l) ⟨k, t, b, w⟩ := by
  obtain ⟨n, hn⟩ := Option.isSome_iff_exists.1 h
  unfold take
  rw [get_obj l k n hn, bind_ok, conv_eq]
  unfold readPar Par.ends Par.read Par.given
  simp only [hn, hw, false_and, if_false]
  cases hv : t.value n <;> simp [hv]

theorem opt_eq (l : List (Str × Node)) (k : String) (t : Ty) (w : Wrong) (hw : w ≠ .ignored) (b : Bool) :
    opt (.obj l) k t.conv = readPar (.obj l) ⟨k, t, b, w⟩ := by
  unfold opt
  rw [has_obj, bind_ok]
  by_cases h : (member k (.obj l)).isSome = true
  · rw [if_pos h, take_eq l k t h w hw b]
  · rw [if_neg h]
    have hn : member k (.obj l) = none := by simpa using h
    unfold readPar Par.ends Par.read Par.given
    simp [hn]

/-- A node of the proper type has a value, save for lists of numbers. -/
theorem proper_value (t : Ty) (ht : t ≠ .ints) (n : Node) (h : t.proper n = true) : (t.value n).isSome = true := by
  cases t <;> cases n with
  | val t s => cases t <;> simp_all [Ty.proper, Ty.value, intOf, textOf]
  | arr l => simp_all [Ty.proper]
  | obj l => simp_all [Ty.proper]

theorem optIf_eq (l : List (Str × Node)) (k : String) (t : Ty) (test : Node → Bool) (ht : ∀ n, test n = t.proper n) (b : Bool) :
    optIf (.obj l) k test t.conv = readPar (.obj l) ⟨k, t, b, .ignored⟩ := by
  unfold optIf
  rw [has_obj, bind_ok]
  by_cases h : (member k (.obj l)).isSome = true
  · obtain ⟨n, hn⟩ := Option.isSome_iff_exists.1 h
    rw [if_pos h, get_obj l k n hn, bind_ok, ht n]
    by_cases hp : t.proper n = true
    · rw [if_pos hp, take_eq l k t h .ends (by decide) b]
      unfold readPar Par.ends Par.read Par.given
      simp [hn, hp]
    · rw [if_neg hp]
      unfold readPar Par.ends Par.read Par.given
      simp [hn, hp]
  · rw [if_neg h]
    have hn : member k (.obj l) = none := by simpa using h
    unfold readPar Par.ends Par.read Par.given
    simp [hn]

theorem isNum_proper (n : Node) : isNum n = Ty.int.proper n := by
  cases n with
  | val t s => cases t <;> rfl
  | _ => rfl

theorem isStr_proper (n : Node) : isStr n = Ty.text.proper n := by
  cases n with
  | val t s => cases t <;> rfl
  | _ => rfl

theorem isBool_proper (n : Node) : isBool n = Ty.bool.proper n := by
  cases n with
  | val t s => cases t <;> rfl
  | _ => rfl

theorem isArr_proper (n : Node) : isArr n = Ty.ints.proper n := by
  cases n with
  | val t s => cases t <;> rfl
  | _ => rfl

theorem is_eq (l : List (Str × Node)) (k : String) (test : Node → Bool) (h : (member k (.obj l)).isSome = true) :
    is (.obj l) k test = .ok ((member k (.obj l)).any test) := by
  obtain ⟨n, hn⟩ := Option.isSome_iff_exists.1 h
  unfold is
  rw [get_obj l k n hn, hn]
  rfl

theorem isAll_eq (l : List (Str × Node)) (ks : List String) (test : Node → Bool) (h : ∀ k ∈ ks, (member k (.obj l)).isSome = true) :
    isAll (.obj l) test ks = .ok (ks.all fun k => (member k (.obj l)).any test) := by
  induction ks with
  | nil => rfl
  | cons k ks ih =>
    rw [isAll, is_eq l k test (h k (by simp)), bind_ok, List.all_cons]
    cases (member k (.obj l)).any test with
    | true => simpa using ih fun k hk => h k (by simp [hk])
    | false => simp

theorem bind_assoc {α β γ : Type} (x : R α) (f : α → R β) (g : β → R γ) :
    (x.bind f).bind g = x.bind fun a => (f a).bind g := by
  cases x <;> rfl

theorem must_refuses (k : String) (t : Ty) (p : Node) : (must k t).refuses p = !(member k p).isSome := by
  unfold Par.refuses must
  simp only
  cases member k p <;> simp

theorem may_refuses (k : String) (t : Ty) (p : Node) : (may k t).refuses p = false := by
  unfold Par.refuses may
  simp only
  cases member k p <;> simp

theorem mayBe_refuses (k : String) (t : Ty) (p : Node) : (mayBe k t).refuses p = false := by
  unfold Par.refuses mayBe
  simp only
  cases member k p <;> simp

theorem mustBe_refuses (k : String) (t : Ty) (p : Node) : (mustBe k t).refuses p = !(member k p).any t.proper := by
  unfold Par.refuses mustBe
  simp only
  cases member k p <;> simp

end Lms.FilterEvents
