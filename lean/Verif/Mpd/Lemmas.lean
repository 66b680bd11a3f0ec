import Verif.Mpd.Model

namespace Lms.Mpd

theorem popTo_spec (m : Nat) (hm : 1 ≤ m) (win : List (Nat × Nat)) : ∀ rm,
    popTo m win rm = .ok (win.drop (win.length + 1 - m),
      if h : m ≤ win.length then (win[win.length - m]'(by omega)).1 else rm) := by
  induction win with
  | nil => intro rm; simp only [popTo]; rw [if_neg (by omega), dif_neg (by simp; omega)]; simp
  | cons x l ih =>
    intro rm
    simp only [popTo]
    by_cases h : (x :: l).length ≥ m
    · rw [if_pos h, ih, dif_pos h]
      have h' : m ≤ l.length + 1 := h
      have e1 : (x :: l).length + 1 - m = (l.length + 1 - m) + 1 := by simp; omega
      rw [e1, List.drop_succ_cons]
      congr 2
      by_cases h2 : m ≤ l.length
      · rw [dif_pos h2]
        have e2 : (x :: l).length - m = (l.length - m) + 1 := by simp; omega
        simp only [e2, List.getElem_cons_succ]
      · rw [dif_neg h2]
        have e2 : (x :: l).length - m = 0 := by simp; omega
        simp only [e2, List.getElem_cons_zero]
    · rw [if_neg h, dif_neg (by omega)]
      have e1 : (x :: l).length + 1 - m = 0 := by omega
      rw [e1]; rfl

theorem updateTimestamp_spec (win : List (Nat × Nat)) (m ts dur : Nat) (hm : 1 ≤ m) :
    updateTimestamp win m ts dur = .ok ((win ++ [(ts, dur)]).drop (win.length + 1 - m),
      if h : m ≤ win.length then (win[win.length - m]'(by omega)).1 else 0) := by
  simp only [updateTimestamp, popTo_spec m hm, Outcome.bind_ok]
  congr 2
  rw [List.drop_append]
  have : win.length + 1 - m - win.length = 0 := by omega
  rw [this]; rfl

/-- The bound is always at least two. -/
theorem step_maxSeg {s s' : State} {op : Op} {o : Out} (h : step s op = .ok (s', o)) (hs : 2 ≤ s.maxSeg) :
    2 ≤ s'.maxSeg := by
  cases op with
  | configure w n b mb ms sd =>
    simp only [step, dasherConfigure] at h
    (repeat' split at h) <;> cases h
    · exact hs
    · exact hs
    · simp only [configure, MIN_SEGMENT]; split <;> omega
  | announce ts dur written =>
    simp only [step, announce] at h
    split at h
    · cases h; exact hs
    · split at h
      · cases h; exact hs
      · rw [updateTimestamp_spec _ _ _ _ (by omega)] at h
        simp only [Outcome.bind_ok, Outcome.ok.injEq, Prod.mk.injEq] at h
        rw [← h.1]; exact hs
  | addRep id => simp only [step] at h; split at h <;> cases h <;> exact hs
  | delRep id => simp only [step] at h; split at h <;> cases h <;> exact hs

theorem step_ok (s : State) (op : Op) (hs : 2 ≤ s.maxSeg) : ∃ r, step s op = .ok r := by
  cases op with
  | configure w n b mb ms sd => exact ⟨_, rfl⟩
  | announce ts dur written =>
    simp only [step, announce]
    split
    · exact ⟨_, rfl⟩
    · split
      · exact ⟨_, rfl⟩
      · rw [updateTimestamp_spec _ _ _ _ (by omega)]
        exact ⟨_, rfl⟩
  | addRep id => simp only [step]; split <;> exact ⟨_, rfl⟩
  | delRep id => simp only [step]; split <;> exact ⟨_, rfl⟩

end Lms.Mpd
