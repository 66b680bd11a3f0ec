import Verif.Manifest.Props

/-!
# C80: the names of the files, and the addresses made of the templates
-/

namespace Lms.Manifest

open Lms Lms.Json Lms.Control

/-! ## Templates -/

theorem expand_plain (id time a b : Str) (h : '$' ∉ a) : expand id time (a ++ b) = (expand id time b).map (a ++ ·) := by
  induction a with
  | nil => simp
  | cons c a ih =>
    have hc : c ≠ '$' := fun hh => h (by rw [hh]; exact List.mem_cons_self ..)
    rw [List.cons_append, expand, if_neg hc, ih (fun hm => h (List.mem_cons_of_mem _ hm)), Option.map_map]
    rfl

theorem upToDollar_append (k b : Str) (h : '$' ∉ k) : upToDollar (k ++ '$' :: b) = some (k, b) := by
  induction k with
  | nil => simp [upToDollar]
  | cons c k ih =>
    have hc : c ≠ '$' := fun hh => h (by rw [hh]; exact List.mem_cons_self ..)
    rw [List.cons_append, upToDollar, if_neg hc, ih fun hm => h (List.mem_cons_of_mem _ hm)]
    rfl

theorem expand_dollar (id time k b : Str) (h : '$' ∉ k) : expand id time ('$' :: (k ++ '$' :: b)) =
    if k = [] then (expand id time b).map ('$' :: ·)
    else if k = "RepresentationID".toList then (expand id time b).map (id ++ ·)
    else if k = "Time".toList then (expand id time b).map (time ++ ·)
    else none := by
  rw [expand, if_pos rfl]
  split
  · rename_i hu; rw [upToDollar_append k b h] at hu; cases hu
  · rename_i k' r hu
    rw [upToDollar_append k b h] at hu
    cases hu
    rfl

theorem expand_id (id time b : Str) : expand id time ("$RepresentationID$".toList ++ b) = (expand id time b).map (id ++ ·) := by
  have := expand_dollar id time "RepresentationID".toList b (by decide)
  rw [if_neg (by decide), if_pos rfl] at this
  exact this

theorem expand_time (id time b : Str) : expand id time ("$Time$".toList ++ b) = (expand id time b).map (time ++ ·) := by
  have := expand_dollar id time "Time".toList b (by decide)
  rw [if_neg (by decide), if_neg (by decide), if_pos rfl] at this
  exact this

theorem expand_end (id time a : Str) (h : '$' ∉ a) : expand id time a = some a := by
  have := expand_plain id time a [] h
  rw [List.append_nil, show expand id time [] = some [] by rw [expand]] at this
  simpa using this

theorem ext_plain (audio : Bool) : '$' ∉ ext audio := by cases audio <;> decide

/-- **C80**: the address a player makes of the media template for a representation and a segment is the name, in the folder of the
manifest, under which the segment of that representation is written. -/
theorem media_address (folder base : Str) (audio : Bool) (id ts : Nat) (h : '$' ∉ base) :
    (expand (dec id) (dec ts) (mediaTemplate base audio)).map (folder ++ ·) = some (segmentName (folder ++ base) id ts audio) := by
  have e : mediaTemplate base audio =
      base ++ ("_".toList ++ ("$RepresentationID$".toList ++ ("_".toList ++ ("$Time$".toList ++ ext audio)))) := by
    unfold mediaTemplate
    rw [show "_$RepresentationID$_$Time$".toList = "_".toList ++ ("$RepresentationID$".toList ++ ("_".toList ++ "$Time$".toList)) by decide]
    simp only [List.append_assoc]
  rw [e, expand_plain _ _ _ _ h, expand_plain _ _ _ _ (by decide), expand_id, expand_plain _ _ _ _ (by decide), expand_time,
    expand_end _ _ _ (ext_plain audio)]
  simp only [Option.map_some, segmentName, List.append_assoc]

/-- **C80**: the same of the initial segment. -/
theorem init_address (folder base : Str) (audio : Bool) (id ts : Nat) (h : '$' ∉ base) :
    (expand (dec id) (dec ts) (initTemplate base audio)).map (folder ++ ·) = some (initName (folder ++ base) id audio) := by
  have e : initTemplate base audio = base ++ ("_".toList ++ ("$RepresentationID$".toList ++ ("_init".toList ++ ext audio))) := by
    unfold initTemplate
    rw [show "_$RepresentationID$_init".toList = "_".toList ++ ("$RepresentationID$".toList ++ "_init".toList) by decide]
    simp only [List.append_assoc]
  rw [e, expand_plain _ _ _ _ h, expand_plain _ _ _ _ (by decide), expand_id, expand_plain _ _ _ _ (by decide),
    expand_end _ _ _ (ext_plain audio)]
  simp only [Option.map_some, initName, List.append_assoc]

example : '$' ∉ "live".toList := by decide

/-- Recorded: with a dollar sign in the base name the template is of no use, or leads elsewhere. -/
theorem dollar_in_base (id time : Str) :
    expand id time (mediaTemplate "a$b".toList false) = none ∧
    (expand id time (initTemplate "a$$".toList false)) = some ("a$_".toList ++ (id ++ "_init.m4v".toList)) := by
  refine ⟨?_, ?_⟩
  · have e : mediaTemplate "a$b".toList false =
        "a".toList ++ '$' :: ("b_".toList ++ '$' :: "RepresentationID$_$Time$.m4v".toList) := by decide
    rw [e, expand_plain _ _ _ _ (by decide), expand_dollar _ _ _ _ (by decide)]
    rfl
  · have e : initTemplate "a$$".toList false =
        "a".toList ++ '$' :: ([] ++ '$' :: ("_".toList ++ ("$RepresentationID$".toList ++ "_init.m4v".toList))) := by decide
    rw [e, expand_plain _ _ _ _ (by decide), expand_dollar _ _ _ _ (by decide), if_pos rfl, expand_plain _ _ _ _ (by decide), expand_id,
      expand_end _ _ _ (by decide)]
    rfl

/-! ## No two files share a name -/

/-- A name cut at its last underscore. -/
theorem cut_at_last (a b a' b' : Str) (h : a ++ '_' :: b = a' ++ '_' :: b') (hb : '_' ∉ b) (hb' : '_' ∉ b') : a = a' ∧ b = b' := by
  have hlen : a.length = a'.length := by
    rcases Nat.lt_trichotomy a.length a'.length with hl | hl | hl
    · exfalso
      have h1 : (a ++ '_' :: b)[a'.length]? = some '_' := by rw [h]; simp
      rw [List.getElem?_append_right (by omega)] at h1
      obtain ⟨n, hn⟩ : ∃ n, a'.length - a.length = n + 1 := ⟨a'.length - a.length - 1, by omega⟩
      rw [hn, List.getElem?_cons_succ] at h1
      exact hb (List.mem_of_getElem? h1)
    · exact hl
    · exfalso
      have h1 : (a' ++ '_' :: b')[a.length]? = some '_' := by rw [← h]; simp
      rw [List.getElem?_append_right (by omega)] at h1
      obtain ⟨n, hn⟩ : ∃ n, a.length - a'.length = n + 1 := ⟨a.length - a'.length - 1, by omega⟩
      rw [hn, List.getElem?_cons_succ] at h1
      exact hb' (List.mem_of_getElem? h1)
  obtain ⟨h1, h2⟩ := List.append_inj h hlen
  exact ⟨h1, by simpa using h2⟩

theorem dec_plain (n : Nat) (c : Char) (hc : ¬ ('0' ≤ c ∧ c ≤ '9')) : c ∉ dec n := fun h => hc (dec_digits n c h)

theorem dec_inj {a b : Nat} (h : dec a = dec b) : a = b := by
  have := congrArg natOf h
  rw [natOf_dec, natOf_dec] at this
  simpa using this

theorem append_ext {a b : Str} {x y : Bool} (h : a ++ ext x = b ++ ext y) : a = b ∧ x = y := by
  have hl : (ext x).length = (ext y).length := by cases x <;> cases y <;> rfl
  obtain ⟨h1, h2⟩ := List.append_inj' h hl
  exact ⟨h1, by cases x <;> cases y <;> first | rfl | exact absurd h2 (by decide)⟩

/-- The files of a stream. -/
inductive File where
  | manifest (path : Str)
  | init (path : Str) (id : Nat) (audio : Bool)
  | segment (path : Str) (id ts : Nat) (audio : Bool)
  deriving DecidableEq

/-- Their names (Dasher.cpp:71, 586-600). -/
def File.name : File → Str
  | .manifest p => mpdName p
  | .init p i a => initName p i a
  | .segment p i t a => segmentName p i t a

theorem ext_ne_mpd (p q : Str) (a : Bool) : p ++ ext a ≠ q ++ ".mpd".toList := by
  intro h
  have hl : (ext a).length = ".mpd".toList.length := by cases a <;> rfl
  have := (List.append_inj' h hl).2
  revert this
  cases a <;> decide

/-- **C80**: different files have different names: no segment, initial segment or manifest, of whatever path, representation, time and
kind, overwrites another. -/
theorem names_differ (f g : File) (h : f.name = g.name) : f = g := by
  have key : ∀ (p q : Str) (i j t : Nat) (a b : Bool), initName p i a ≠ segmentName q j t b := by
    intro p q i j t a b h
    have h' : (p ++ "_".toList ++ dec i ++ "_init".toList) ++ ext a = (q ++ "_".toList ++ dec j ++ "_".toList ++ dec t) ++ ext b := h
    obtain ⟨h1, _⟩ := append_ext h'
    have h2 : (p ++ "_".toList ++ dec i) ++ '_' :: "init".toList = (q ++ "_".toList ++ dec j) ++ '_' :: dec t := by
      simpa [List.append_assoc] using h1
    have := (cut_at_last _ _ _ _ h2 (by decide) (dec_plain t '_' (by decide))).2
    have hd := dec_digits t 'i' (by rw [← this]; decide)
    exact absurd hd (by decide)
  cases f with
  | manifest p =>
    cases g with
    | manifest q => exact congrArg _ (List.append_cancel_right h)
    | init q i a => exact absurd h.symm (ext_ne_mpd _ _ a)
    | segment q i t a => exact absurd h.symm (ext_ne_mpd _ _ a)
  | init p i a =>
    cases g with
    | manifest q => exact absurd h (ext_ne_mpd _ _ a)
    | segment q j t b => exact absurd h (key _ _ _ _ _ _ _)
    | init q j b =>
      obtain ⟨h1, h2⟩ := append_ext (show (p ++ "_".toList ++ dec i ++ "_init".toList) ++ ext a =
        (q ++ "_".toList ++ dec j ++ "_init".toList) ++ ext b from h)
      have h3 := List.append_cancel_right h1
      have h4 : p ++ '_' :: dec i = q ++ '_' :: dec j := by simpa [List.append_assoc] using h3
      obtain ⟨h5, h6⟩ := cut_at_last _ _ _ _ h4 (dec_plain i '_' (by decide)) (dec_plain j '_' (by decide))
      rw [h5, dec_inj h6, h2]
  | segment p i t a =>
    cases g with
    | manifest q => exact absurd h (ext_ne_mpd _ _ a)
    | init q j b => exact absurd h.symm (key _ _ _ _ _ _ _)
    | segment q j u b =>
      obtain ⟨h1, h2⟩ := append_ext (show (p ++ "_".toList ++ dec i ++ "_".toList ++ dec t) ++ ext a =
        (q ++ "_".toList ++ dec j ++ "_".toList ++ dec u) ++ ext b from h)
      have h3 : (p ++ "_".toList ++ dec i) ++ '_' :: dec t = (q ++ "_".toList ++ dec j) ++ '_' :: dec u := by
        simpa [List.append_assoc] using h1
      obtain ⟨h5, h6⟩ := cut_at_last _ _ _ _ h3 (dec_plain t '_' (by decide)) (dec_plain u '_' (by decide))
      have h7 : p ++ '_' :: dec i = q ++ '_' :: dec j := by simpa [List.append_assoc] using h5
      obtain ⟨h8, h9⟩ := cut_at_last _ _ _ _ h7 (dec_plain i '_' (by decide)) (dec_plain j '_' (by decide))
      rw [h8, dec_inj h6, dec_inj h9, h2]

end Lms.Manifest
