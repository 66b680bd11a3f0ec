import Verif.SlicedQueue.Spec

/-! Helper lemmas for the sliced queue. -/

namespace Lms.SlicedQueue
open Lms.FrameQueue (Ring Rel)

abbrev FSpec := FrameQueue.Spec Coded

theorem innerAddFrame_eq {r : Ring Coded} (t : FSpec) (h : Rel r t) (hc : t.q.length < t.cap) :
    innerAddFrame r = r.addFrame := by
  have := h.hmax
  unfold innerAddFrame Ring.addFrame
  rw [if_neg (by omega), if_neg (by omega), if_neg (by rw [h.full_iff]; simpa using hc)]

/-- The abstract effect of one slice. -/
def absPush (t : FSpec) (x : Coded) : FSpec := { t.makeRoom with q := t.makeRoom.q ++ [x] }

theorem pushSlice_rel {r : Ring Coded} {t : FSpec} (h : Rel r t) (ms : Nat) (m : Meta)
    (b : List UInt8) (hb : b.length ≤ ms) :
    ∃ r', pushSlice ms m r b = .ok r' ∧ Rel r' (absPush t ⟨b, m⟩) := by
  obtain ⟨r1, h1, hrel, hroom, _⟩ := h.writerSlot_true
  obtain ⟨r2, h2, hrel2⟩ := hrel.put hroom ⟨b, m⟩
  refine ⟨r2, ?_, hrel2⟩
  unfold pushSlice
  rw [h1]
  simp only [Outcome.bind_ok]
  rw [if_neg (by omega), innerAddFrame_eq _ (hrel.write hroom _) hroom, h2]

theorem pushGroup_rel (ms : Nat) (m : Meta) : ∀ (bs : List (List UInt8)) (r : Ring Coded)
    (t : FSpec), Rel r t → (∀ b ∈ bs, b.length ≤ ms) →
    ∃ r', pushBackSliceGroup ms m r bs = .ok r' ∧
      Rel r' ((pictureFrames m bs).foldl absPush t) := by
  intro bs
  induction bs with
  | nil => intro r t h _; exact ⟨r, rfl, h⟩
  | cons b bs ih =>
    intro r t h hb
    obtain ⟨r1, h1, hr1⟩ := pushSlice_rel h ms m b (hb b (by simp))
    obtain ⟨r2, h2, hr2⟩ := ih r1 _ hr1 (fun b' hb' => hb b' (by simp [hb']))
    refine ⟨r2, ?_, hr2⟩
    unfold pushBackSliceGroup
    rw [h1]; exact h2

/-- Pushing frames one by one, dropping the newest when full, gives the closed form. -/
theorem foldl_absPush (fs : List Coded) : ∀ (t : FSpec), 1 ≤ t.cap → t.q.length ≤ t.cap →
    fs.foldl absPush t =
      { t with q := appendBounded t.cap t.q fs, lost := t.lost + ((t.q ++ fs).length - t.cap) } := by
  induction fs with
  | nil =>
    intro t _ hl
    have e : appendBounded t.cap t.q [] = t.q := by
      unfold appendBounded; rw [if_pos (by simpa using hl)]; simp
    have e2 : (t.q ++ []).length - t.cap = 0 := by simp; omega
    rw [e, e2]; rfl
  | cons x fs ih =>
    intro t hc hl
    rw [List.foldl_cons]
    by_cases hr : t.q.length < t.cap
    · have e : absPush t x = { t with q := t.q ++ [x] } := by
        unfold absPush FrameQueue.Spec.makeRoom; rw [if_pos hr]
      rw [ih (absPush t x) (by rw [e]; exact hc) (by rw [e]; simp; omega), e]
      simp [appendBounded]
    · have e : absPush t x = { t with q := t.q.dropLast ++ [x], lost := t.lost + 1 } := by
        unfold absPush FrameQueue.Spec.makeRoom; rw [if_neg hr]
      have hq : t.q.length = t.cap := by omega
      rw [ih (absPush t x) (by rw [e]; exact hc) (by rw [e]; simp; omega), e]
      have hd : t.q.dropLast.length = t.cap - 1 := by simp [hq]
      have e3 : appendBounded t.cap (t.q.dropLast ++ [x]) fs = appendBounded t.cap t.q (x :: fs) := by
        unfold appendBounded
        rw [if_neg (by simp; omega) (c := (t.q ++ x :: fs).length ≤ t.cap)]
        have et : (t.q ++ x :: fs).take (t.cap - 1) = t.q.dropLast := by
          rw [List.take_append_of_le_length (by omega), List.dropLast_eq_take, hq]
        rw [et]
        rcases fs with _ | ⟨y, fs⟩
        · rw [if_pos (by simp; omega)]; simp
        · rw [if_neg (by simp; omega)]
          congr 1
          · rw [List.append_assoc, List.take_append_of_le_length (by omega), List.take_of_length_le (by omega)]
          · simp [List.getLast?_append, List.getLast?_cons]
      simp only [e3]
      congr 1
      simp; omega

structure SRel (s : SQ) (t : Spec) : Prop where
  ring : Rel s.ring ⟨t.cap, t.q, t.last, t.lost⟩
  pend : s.slices = t.pending
  info : s.inMeta = t.info
  fit : ∀ b ∈ s.slices, b.length ≤ s.maxSlice

theorem Spec.step_cap (t : Spec) (op : Op) : (t.step op).1.cap = t.cap := by
  cases op <;> simp only [Spec.step] <;> repeat' (first | rfl | split)

/-- The precondition the code relies on: no slice is larger than a frame buffer. -/
def Fits (ms : Nat) : Op → Prop
  | .setSlice b => b.length ≤ ms
  | _ => True

theorem step_rel (s : SQ) (t : Spec) (op : Op) (hop : Fits s.maxSlice op) (h : SRel s t) :
    ∃ s', s.step op = .ok (s', (t.step op).2) ∧ SRel s' (t.step op).1 ∧
      s'.maxSlice = s.maxSlice := by
  obtain ⟨hr, hp, hi, hf⟩ := h
  cases op with
  | setSlice b =>
    by_cases hc : s.slices.length < 16
    · have e1 : s.setSlice b = ({ s with slices := s.slices ++ [b] }, true) := by
        unfold SQ.setSlice; rw [if_neg (by unfold MAX_SLICES; omega)]
      simp only [SQ.step, Spec.step, e1, ← hp, hc, if_true]
      refine ⟨_, rfl, ⟨hr, rfl, hi, ?_⟩, rfl⟩
      intro b' hb'
      simp at hb'
      rcases hb' with hb' | rfl
      · exact hf b' hb'
      · exact hop
    · have e1 : s.setSlice b = (s, false) := by
        unfold SQ.setSlice; rw [if_pos (by unfold MAX_SLICES; omega)]
      simp only [SQ.step, Spec.step, e1, ← hp, hc, if_false]
      exact ⟨_, rfl, ⟨hr, hp, hi, hf⟩, rfl⟩
  | setMeta m => exact ⟨_, rfl, ⟨hr, hp, rfl, hf⟩, rfl⟩
  | commit =>
    obtain ⟨r', h1, h2⟩ := pushGroup_rel s.maxSlice s.inMeta s.slices s.ring _ hr hf
    have hcap : 1 ≤ t.cap := by have := hr.hmax; have := hr.hcap; simp at this; omega
    have hlen : t.q.length ≤ t.cap := by
      have := hr.hlen; have := hr.hcap; simp at *; omega
    rw [foldl_absPush _ _ hcap hlen] at h2
    refine ⟨{ s with ring := r', slices := [] }, ?_, ⟨?_, rfl, hi, by simp⟩, rfl⟩
    · simp only [SQ.step, SQ.addFrame, h1, Outcome.bind_ok]; rfl
    · simp only [Spec.step]; rw [← hp, ← hi]; exact h2
  | giveUp => exact ⟨_, rfl, ⟨hr, hp, hi, hf⟩, rfl⟩
  | room =>
    refine ⟨s, ?_, ⟨hr, hp, hi, hf⟩, rfl⟩
    simp only [SQ.step, hr.getRear_eq, Outcome.bind_ok, Spec.step]
    split <;> simp_all
  | take =>
    obtain ⟨r', h1, h2⟩ := FrameQueue.step_rel s.ring _ .take hr
    refine ⟨{ s with ring := r' }, ?_, ⟨?_, hp.trans ?_, hi.trans ?_, hf⟩, rfl⟩
    · simp only [SQ.step, SQ.onRing, h1, Outcome.bind_ok, Spec.step, FrameQueue.Spec.step]
      rcases t.q <;> rfl
    · show Rel r' _
      simp only [Spec.step, FrameQueue.Spec.step] at h2 ⊢
      rcases hq : t.q <;> simp only [hq] at h2 ⊢ <;> exact h2
    · simp only [Spec.step]; rcases t.q <;> rfl
    · simp only [Spec.step]; rcases t.q <;> rfl
  | old =>
    obtain ⟨r', h1, h2⟩ := FrameQueue.step_rel s.ring _ .old hr
    refine ⟨{ s with ring := r' }, ?_, ⟨h2, hp, hi, hf⟩, rfl⟩
    simp only [SQ.step, SQ.onRing, h1, Outcome.bind_ok, Spec.step, FrameQueue.Spec.step]
  | count =>
    obtain ⟨r', h1, h2⟩ := FrameQueue.step_rel s.ring _ .count hr
    refine ⟨{ s with ring := r' }, ?_, ⟨h2, hp, hi, hf⟩, rfl⟩
    simp only [SQ.step, SQ.onRing, h1, Outcome.bind_ok, Spec.step, FrameQueue.Spec.step]

end Lms.SlicedQueue
