/-! List vocabulary used by several models (models no particular file). -/

namespace Lms

/-- Two lists of equal length related element by element. -/
inductive Forall2 {α : Type u} {β : Type v} (R : α → β → Prop) : List α → List β → Prop
  | nil : Forall2 R [] []
  | cons {a b as bs} : R a b → Forall2 R as bs → Forall2 R (a :: as) (b :: bs)

theorem Forall2.length_eq {α : Type u} {β : Type v} {R : α → β → Prop} {as : List α} {bs : List β}
    (h : Forall2 R as bs) : as.length = bs.length := by
  induction h with
  | nil => rfl
  | cons _ _ ih => simp [ih]

theorem Forall2.imp {α : Type u} {β : Type v} {R S : α → β → Prop} {as : List α} {bs : List β}
    (h : Forall2 R as bs) (hi : ∀ a b, R a b → S a b) : Forall2 S as bs := by
  induction h with
  | nil => exact .nil
  | cons h1 _ ih => exact .cons (hi _ _ h1) ih

theorem Forall2.get {α : Type u} {β : Type v} {R : α → β → Prop} {as : List α} {bs : List β}
    (h : Forall2 R as bs) {i : Nat} {a : α} {b : β} (ha : as[i]? = some a) (hb : bs[i]? = some b) :
    R a b := by
  induction h generalizing i with
  | nil => simp at ha
  | cons h1 _ ih =>
    cases i with
    | zero => simp at ha hb; subst ha hb; exact h1
    | succ i => simp at ha hb; exact ih ha hb

end Lms
