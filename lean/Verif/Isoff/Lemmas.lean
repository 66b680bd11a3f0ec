import Verif.Isoff.Model
import Verif.Isoff.Spec

/-!
# Lemmas on reading boxes
-/

namespace Lms.Isoff

/-- A box with a given type and content. -/
def box (t body : Bytes) : Bytes := be32 (8 + body.length) ++ (t ++ body)

theorem box_length (t body : Bytes) (ht : t.length = 4) : (box t body).length = 8 + body.length := by
  simp [box, ht]; omega

def Parses (bs : Bytes) (r : List Box) : Prop := ∀ fuel, bs.length ≤ fuel → parse fuel bs = some r

theorem Parses.nil : Parses [] [] := by
  intro fuel _
  cases fuel <;> rfl

theorem Parses.file {bs : Bytes} {r : List Box} (h : Parses bs r) : parseFile bs = some r := h _ (Nat.le_refl _)

section
variable {t body rest : Bytes}

theorem box_take4 (t body rest : Bytes) : (box t body ++ rest).take 4 = be32 (8 + body.length) := by
  rw [box, List.append_assoc]; exact take_append_self _ _ 4 rfl

theorem box_type (ht : t.length = 4) : ((box t body ++ rest).drop 4).take 4 = t := by
  rw [box, List.append_assoc, drop_append_self _ _ 4 rfl, List.append_assoc]
  exact take_append_self _ _ 4 ht

theorem box_take (ht : t.length = 4) : (box t body ++ rest).take (8 + body.length) = box t body :=
  take_append_self _ _ _ (box_length t body ht)

theorem box_drop (ht : t.length = 4) : (box t body ++ rest).drop (8 + body.length) = rest :=
  drop_append_self _ _ _ (box_length t body ht)

theorem box_body (ht : t.length = 4) : (box t body).drop 8 = body := by
  rw [box, ← List.append_assoc]
  exact drop_append_self _ _ 8 (by simp [ht])

theorem box_size (hlt : 8 + body.length < 2 ^ 32) : rdBE (be32 (8 + body.length)) = 8 + body.length := by
  rw [rd_be32]; omega

theorem parse_box (ht : t.length = 4) (hlt : 8 + body.length < 2 ^ 32) (fuel : Nat) :
    parse (fuel + 1) (box t body ++ rest) =
      match parse fuel rest with
      | none => none
      | some r =>
        match fieldsLength t with
        | none => some (.mk t body [] :: r)
        | some k =>
          if body.length < k then none
          else
            match parse fuel (body.drop k) with
            | none => none
            | some kids => some (.mk t (body.take k) kids :: r) := by
  have hl : (box t body ++ rest).length = 8 + body.length + rest.length := by
    rw [List.length_append, box_length t body ht]
  have hne : (box t body ++ rest).isEmpty = false := by
    cases h : box t body ++ rest with
    | nil => rw [h] at hl; simp at hl; omega
    | cons _ _ => rfl
  conv => lhs; unfold parse
  simp only [hne, Bool.false_eq_true, if_false, box_take4, box_size hlt, box_type ht, box_take ht, box_drop ht,
    box_body ht]
  rw [if_neg (by omega), if_neg (by omega)]
  cases parse fuel rest <;> rfl

theorem Parses.leaf {r : List Box} (ht : t.length = 4) (hf : fieldsLength t = none)
    (hlt : 8 + body.length < 2 ^ 32) (h : Parses rest r) : Parses (box t body ++ rest) (.mk t body [] :: r) := by
  intro fuel hfuel
  have hl : (box t body ++ rest).length = 8 + body.length + rest.length := by
    rw [List.length_append, box_length t body ht]
  obtain ⟨f, rfl⟩ : ∃ f, fuel = f + 1 := ⟨fuel - 1, by omega⟩
  rw [parse_box ht hlt, h f (by omega)]
  simp only [hf]

theorem Parses.node {hdr inner : Bytes} {kids r : List Box} {k : Nat} (ht : t.length = 4)
    (hf : fieldsLength t = some k) (hk : hdr.length = k) (hlt : 8 + (hdr ++ inner).length < 2 ^ 32)
    (hi : Parses inner kids) (h : Parses rest r) :
    Parses (box t (hdr ++ inner) ++ rest) (.mk t hdr kids :: r) := by
  intro fuel hfuel
  have hl : (box t (hdr ++ inner) ++ rest).length = 8 + (hdr ++ inner).length + rest.length := by
    rw [List.length_append, box_length t _ ht]
  have hl2 : (hdr ++ inner).length = hdr.length + inner.length := List.length_append
  obtain ⟨f, rfl⟩ : ∃ f, fuel = f + 1 := ⟨fuel - 1, by omega⟩
  rw [parse_box ht hlt, h f (by omega)]
  simp only [hf]
  rw [if_neg (by omega), drop_append_self _ _ k hk, take_append_self _ _ k hk, hi f (by omega)]

theorem findBox_hit (ht : t.length = 4) (hlt : 8 + body.length < 2 ^ 32) (fuel : Nat) :
    findBox t (fuel + 1) (box t body ++ rest) = some (0, body) := by
  have hl : (box t body ++ rest).length = 8 + body.length + rest.length := by
    rw [List.length_append, box_length t body ht]
  simp only [findBox, box_take4, box_size hlt, box_type ht, box_take ht, box_body ht]
  rw [if_neg (by omega), if_neg (by omega), if_pos trivial]

theorem findBox_miss {t' : Bytes} (ht : t.length = 4) (hlt : 8 + body.length < 2 ^ 32) (hne : t ≠ t') (fuel : Nat) :
    findBox t' (fuel + 1) (box t body ++ rest) =
      (findBox t' fuel rest).map fun r => (8 + body.length + r.1, r.2) := by
  have hl : (box t body ++ rest).length = 8 + body.length + rest.length := by
    rw [List.length_append, box_length t body ht]
  simp only [findBox, box_take4, box_size hlt, box_type ht, box_take ht, box_body ht, box_drop ht]
  rw [if_neg (by omega), if_neg (by omega), if_neg hne]

end

theorem findBox_nil (t : Bytes) (fuel : Nat) : findBox t fuel [] = none := by
  cases fuel <;> rfl

/-- `findBox` with enough fuel. -/
def Finds (t bs : Bytes) (r : Nat × Bytes) : Prop := ∀ fuel, bs.length ≤ fuel → findBox t fuel bs = some r

theorem Finds.find {t bs : Bytes} {r : Nat × Bytes} (h : Finds t bs r) : find t bs = some r := h _ (Nat.le_refl _)

theorem Finds.hit {t body rest : Bytes} (ht : t.length = 4) (hlt : 8 + body.length < 2 ^ 32) :
    Finds t (box t body ++ rest) (0, body) := by
  intro fuel hf
  have hl : (box t body ++ rest).length = 8 + body.length + rest.length := by
    rw [List.length_append, box_length t body ht]
  obtain ⟨f, rfl⟩ : ∃ f, fuel = f + 1 := ⟨fuel - 1, by omega⟩
  exact findBox_hit ht hlt f

theorem Finds.miss {t t' body rest : Bytes} {p : Nat} {b : Bytes} (ht : t.length = 4)
    (hlt : 8 + body.length < 2 ^ 32) (hne : t ≠ t') (h : Finds t' rest (p, b)) :
    Finds t' (box t body ++ rest) (8 + body.length + p, b) := by
  intro fuel hf
  have hl : (box t body ++ rest).length = 8 + body.length + rest.length := by
    rw [List.length_append, box_length t body ht]
  obtain ⟨f, rfl⟩ : ∃ f, fuel = f + 1 := ⟨fuel - 1, by omega⟩
  rw [findBox_miss ht hlt hne, h f (by omega)]
  rfl

/-! ## The boxes of the writer -/

theorem patched_box (t body : Bytes) (ht : t.length = 4) : patched (t ++ body) = box t body := by
  simp only [patched, box, List.length_append, ht]
  congr 2
  omega

theorem ftyp_box : ftyp = box (ascii "ftyp") (ftyp.drop 8) := by rfl
theorem mvhd_box : mvhd = box (ascii "mvhd") (mvhd.drop 8) := by rfl
theorem trex_box (c : Ctx) : trex c = box (ascii "trex") ((trex c).drop 8) := by rfl
theorem mdhd_box (c : Ctx) : mdhd c = box (ascii "mdhd") ((mdhd c).drop 8) := by rfl
theorem tkhd_box (c : Ctx) : tkhd c = box (ascii "tkhd") ((tkhd c).drop 8) := by
  unfold tkhd; cases c.media.isVideo <;> rfl
theorem hdlr_box (c : Ctx) : hdlr c = box (ascii "hdlr") ((hdlr c).drop 8) := by
  unfold hdlr; cases c.media.isVideo <;> rfl
theorem vmhd_box : vmhd = box (ascii "vmhd") (vmhd.drop 8) := by rfl
theorem smhd_box : smhd = box (ascii "smhd") (smhd.drop 8) := by rfl
theorem url_box : url = box (ascii "url ") (url.drop 8) := by rfl
theorem stts_box : stts = box (ascii "stts") (stts.drop 8) := by rfl
theorem stsc_box : stsc = box (ascii "stsc") (stsc.drop 8) := by rfl
theorem stsz_box : stsz = box (ascii "stsz") (stsz.drop 8) := by rfl
theorem stco_box : stco = box (ascii "stco") (stco.drop 8) := by rfl
theorem styp_box : styp = box (ascii "styp") (styp.drop 8) := by rfl
theorem sidx_box (c : Ctx) : sidx c = box (ascii "sidx") ((sidx c).drop 8) := by rfl
theorem mfhd_box (c : Ctx) : mfhd c = box (ascii "mfhd") ((mfhd c).drop 8) := by rfl
theorem tfhd_box : tfhd = box (ascii "tfhd") (tfhd.drop 8) := by rfl
theorem tfdt_box (c : Ctx) : tfdt c = box (ascii "tfdt") ((tfdt c).drop 8) := by rfl

end Lms.Isoff
