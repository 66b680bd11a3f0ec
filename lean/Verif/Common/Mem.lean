import Verif.Common.Outcome

/-! Byte buffers: `memcpy` with bounds.  A buffer is the list of its bytes; an access outside is
undefined behaviour.  Common vocabulary, models no particular file. -/

namespace Lms

abbrev Bytes := List UInt8

/-- `memcpy(dst + off, src + soff, n)`. -/
def memcpy (dst : Bytes) (off : Nat) (src : Bytes) (soff n : Nat) : Outcome Bytes :=
  if off + n ≤ dst.length ∧ soff + n ≤ src.length then
    .ok (dst.take off ++ (src.drop soff).take n ++ dst.drop (off + n))
  else .ub

theorem memcpy_ok {dst src : Bytes} {off soff n : Nat} (h1 : off + n ≤ dst.length)
    (h2 : soff + n ≤ src.length) :
    memcpy dst off src soff n =
      .ok (dst.take off ++ (src.drop soff).take n ++ dst.drop (off + n)) := by
  unfold memcpy; rw [if_pos ⟨h1, h2⟩]

theorem splice_length {dst src : Bytes} {off soff n : Nat} (h1 : off + n ≤ dst.length)
    (h2 : soff + n ≤ src.length) :
    (dst.take off ++ (src.drop soff).take n ++ dst.drop (off + n)).length = dst.length := by
  simp; omega

theorem splice_getElem? {dst src : Bytes} {off soff n : Nat} (h1 : off + n ≤ dst.length)
    (h2 : soff + n ≤ src.length) (j : Nat) :
    (dst.take off ++ (src.drop soff).take n ++ dst.drop (off + n))[j]? =
      if j < off then dst[j]? else if j < off + n then src[soff + (j - off)]? else dst[j]? := by
  have e1 : (dst.take off).length = off := by simp; omega
  have e2 : ((src.drop soff).take n).length = n := by simp; omega
  by_cases hj : j < off
  · rw [if_pos hj, List.append_assoc, List.getElem?_append_left (by omega),
      List.getElem?_take_of_lt hj]
  · rw [if_neg hj]
    by_cases hj2 : j < off + n
    · rw [if_pos hj2, List.getElem?_append_left (by simp; omega),
        List.getElem?_append_right (by omega), e1, List.getElem?_take_of_lt (by omega),
        List.getElem?_drop]
    · rw [if_neg hj2, List.getElem?_append_right (by simp; omega)]
      rw [List.length_append, e1, e2, List.getElem?_drop]
      congr 1; omega

end Lms
