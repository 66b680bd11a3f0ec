import Verif.NetStats.Recv

/-!
# C66: statistics of transmitted streams
-/

namespace Lms.NetStats

/-- All reports of a history of measurements. -/
def reports (l : List (Nat × Nat × List Report)) : List Report := l.flatMap (·.2.2)

/-- Spec: kilobits per second of so many bytes in so many microseconds, whole. -/
def kilobits (bytes us : Nat) : Nat := 8 * bytes * 1000 / us

theorem min_ite (a b : Nat) : (if a > b then b else a) = min a b := by
  rcases lt_or_ge b a with h | h
  · rw [if_pos h, min_eq_right h.le]
  · rw [if_neg (by omega), min_eq_left h]

theorem max_ite (a b : Nat) : (if a < b then b else a) = max a b := by
  rcases lt_or_ge a b with h | h
  · rw [if_pos h, max_eq_right h.le]
  · rw [if_neg (by omega), max_eq_left h]

theorem reports_fold (rs : List Report) (s : SendStat) :
    let t := rs.foldl SendStat.report s
    t.rate = s.rate ∧ t.rateMin = s.rateMin ∧ t.rateMax = s.rateMax ∧
    t.lossMin = (rs.map (·.loss)).foldl min s.lossMin ∧ t.lossMax = (rs.map (·.loss)).foldl max s.lossMax ∧
    t.rttMin = (rs.map (·.rtt)).foldl min s.rttMin ∧ t.rttMax = (rs.map (·.rtt)).foldl max s.rttMax ∧
    t.jitMin = (rs.map (·.jitter)).foldl min s.jitMin ∧ t.jitMax = (rs.map (·.jitter)).foldl max s.jitMax := by
  induction rs generalizing s with
  | nil => exact ⟨rfl, rfl, rfl, rfl, rfl, rfl, rfl, rfl, rfl⟩
  | cons r rs ih =>
    obtain ⟨h1, h2, h3, h4, h5, h6, h7, h8, h9⟩ := ih (s.report r)
    simp only [List.foldl_cons, List.map_cons]
    refine ⟨h1, h2, h3, ?_, ?_, ?_, ?_, ?_, ?_⟩
    · rw [h4, ← min_ite]; rfl
    · rw [h5, ← max_ite]; rfl
    · rw [h6, ← min_ite]; rfl
    · rw [h7, ← max_ite]; rfl
    · rw [h8, ← min_ite]; rfl
    · rw [h9, ← max_ite]; rfl

theorem run_fold (l : List (Nat × Nat × List Report)) (s : SendStat) :
    (s.run l).rateMin = (l.map fun m => kbps m.1 m.2.1).foldl min s.rateMin ∧ (s.run l).rateMax = (l.map fun m => kbps m.1 m.2.1).foldl max s.rateMax ∧
    (s.run l).lossMin = ((reports l).map (·.loss)).foldl min s.lossMin ∧ (s.run l).lossMax = ((reports l).map (·.loss)).foldl max s.lossMax ∧
    (s.run l).rttMin = ((reports l).map (·.rtt)).foldl min s.rttMin ∧ (s.run l).rttMax = ((reports l).map (·.rtt)).foldl max s.rttMax ∧
    (s.run l).jitMin = ((reports l).map (·.jitter)).foldl min s.jitMin ∧ (s.run l).jitMax = ((reports l).map (·.jitter)).foldl max s.jitMax := by
  induction l generalizing s with
  | nil => exact ⟨rfl, rfl, rfl, rfl, rfl, rfl, rfl, rfl⟩
  | cons m l ih =>
    obtain ⟨h1, h2, h3, h4, h5, h6, h7, h8⟩ := ih (s.measure m.1 m.2.1 m.2.2)
    obtain ⟨-, g2, g3, g4, g5, g6, g7, g8, g9⟩ := reports_fold m.2.2
      { s with rate := kbps m.1 m.2.1, rateMin := if s.rateMin > kbps m.1 m.2.1 then kbps m.1 m.2.1 else s.rateMin, rateMax := if s.rateMax < kbps m.1 m.2.1 then kbps m.1 m.2.1 else s.rateMax }
    have e : s.run (m :: l) = (s.measure m.1 m.2.1 m.2.2).run l := rfl
    have er : reports (m :: l) = m.2.2 ++ reports l := by simp [reports]
    rw [e, er]
    simp only [List.map_append, List.foldl_append, List.map_cons, List.foldl_cons]
    refine ⟨?_, ?_, ?_, ?_, ?_, ?_, ?_, ?_⟩
    · rw [h1, ← min_ite]; congr 1
    · rw [h2, ← max_ite]; congr 1
    · rw [h3]; congr 1
    · rw [h4]; congr 1
    · rw [h5]; congr 1
    · rw [h6]; congr 1
    · rw [h7]; congr 1
    · rw [h8]; congr 1

/-- Spec: `mn` and `mx` are the least and greatest of the values, apart from what they begin with. -/
def Extremes (values : List Nat) (cap mn mx : Nat) : Prop :=
  (∀ v ∈ values, mn ≤ v ∧ v ≤ mx) ∧ (mn ∈ values ∨ (mn = cap ∧ ∀ v ∈ values, cap ≤ v)) ∧ (mx ∈ values ∨ (mx = 0 ∧ ∀ v ∈ values, v = 0))

theorem extremes_of_folds (values : List Nat) (cap : Nat) : Extremes values cap (values.foldl min cap) (values.foldl max 0) := by
  obtain ⟨a1, a2, a3⟩ := foldl_min_le values cap
  obtain ⟨b1, b2, b3⟩ := foldl_max_ge values 0
  refine ⟨fun v hv => ⟨a2 v hv, b2 v hv⟩, ?_, ?_⟩
  · rcases a3 with h | h
    · exact Or.inr ⟨h, fun v hv => by have := a2 v hv; omega⟩
    · exact Or.inl h
  · rcases b3 with h | h
    · exact Or.inr ⟨h, fun v hv => by have := b2 v hv; omega⟩
    · exact Or.inl h

/-- C66: whatever was measured and reported, least and greatest values told are those of all measurements and all receivers' reports
(the least ones told not above a million, of the loss 100). -/
theorem extremes_told (l : List (Nat × Nat × List Report)) :
    let s := ({} : SendStat).run l
    Extremes (l.map fun m => kbps m.1 m.2.1) 1000000 s.rateMin s.rateMax ∧ Extremes ((reports l).map (·.loss)) 100 s.lossMin s.lossMax ∧
    Extremes ((reports l).map (·.rtt)) 1000000 s.rttMin s.rttMax ∧ Extremes ((reports l).map (·.jitter)) 1000000 s.jitMin s.jitMax := by
  obtain ⟨h1, h2, h3, h4, h5, h6, h7, h8⟩ := run_fold l {}
  simp only
  rw [h1, h2, h3, h4, h5, h6, h7, h8]
  exact ⟨extremes_of_folds _ _, extremes_of_folds _ _, extremes_of_folds _ _, extremes_of_folds _ _⟩

theorem run_append (l : List (Nat × Nat × List Report)) (s : SendStat) (m : Nat × Nat × List Report) : s.run (l ++ [m]) = (s.run l).measure m.1 m.2.1 m.2.2 := by
  induction l generalizing s with
  | nil => rfl
  | cons x l ih => exact ih _

/-- C66: the present values are those of the last measurement and, if any, its last report. -/
theorem present_told (l : List (Nat × Nat × List Report)) (bytes us : Nat) (rs : List Report) :
    (({} : SendStat).run (l ++ [(bytes, us, rs)])).rate = kbps bytes us ∧
    ∀ rs' r, rs = rs' ++ [r] → let s := ({} : SendStat).run (l ++ [(bytes, us, rs)])
      s.ssrc = r.ssrc ∧ s.loss = r.loss ∧ s.rtt = r.rtt ∧ s.jitter = r.jitter := by
  rw [run_append]
  refine ⟨(reports_fold rs _).1, ?_⟩
  rintro rs' r rfl
  simp only [SendStat.measure, List.foldl_append, List.foldl_cons, List.foldl_nil, SendStat.report]
  exact ⟨trivial, trivial, trivial, trivial⟩

/-- C66: the bit rate is that of the bytes sent since the last measurement, if they are fewer than 2^29. -/
theorem rate_exact (bytes us : Nat) (hb : bytes < 2 ^ 29) (hu : 0 < us) : kbps bytes us = kilobits bytes us := by
  unfold kbps kilobits
  rw [if_neg (by omega), Nat.mod_eq_of_lt (by omega)]

/-- C66, recorded: with more the product wraps: 2^29 bytes in a second count as none. -/
theorem rate_wraps : kbps (2 ^ 29) 1000000 = 0 ∧ kilobits (2 ^ 29) 1000000 = 4294967 := by decide

/-! ## What is told of the streams of a connection -/

/-- The first member with a name (`Object::Get`, `Jzon.cpp`). -/
def firstOf (o : List (String × Nat)) (name : String) : Option Nat := (o.find? fun x => x.1 = name).map (·.2)

/-- The last one, as many other readers take it. -/
def lastOf (o : List (String × Nat)) (name : String) : Option Nat := firstOf o.reverse name

theorem tellStreams_get (l : List SendStat) (acc : List (String × Nat)) (i : Nat) (s : SendStat) (h : l[i]? = some s) :
    ∃ pre, (tellStreams acc l)[i]? = some (acc ++ pre ++ s.members) := by
  induction l generalizing acc i with
  | nil => simp at h
  | cons x l ih =>
    cases i with
    | zero =>
      simp only [List.getElem?_cons_zero, Option.some.injEq] at h
      subst h
      exact ⟨[], by simp [tellStreams]⟩
    | succ i =>
      rw [List.getElem?_cons_succ] at h
      obtain ⟨pre, e⟩ := ih (acc ++ x.members) i h
      refine ⟨x.members ++ pre, ?_⟩
      rw [tellStreams, List.getElem?_cons_succ, e]
      simp

/-- The names told. -/
def names : List String := ({} : SendStat).members.map (·.1)

theorem members_names (s : SendStat) : s.members.map (·.1) = names := rfl

theorem firstOf_append (a b : List (String × Nat)) (n : String) (h : n ∈ a.map (·.1)) : firstOf (a ++ b) n = firstOf a n := by
  unfold firstOf
  rw [List.find?_append]
  obtain ⟨x, hx, e⟩ := List.mem_map.mp h
  cases hf : a.find? fun y => y.1 = n with
  | some y => simp
  | none =>
    have := List.find?_eq_none.mp hf x hx
    simp [e] at this

theorem names_nodup : names.Nodup := by decide

theorem firstOf_reverse (l : List (String × Nat)) (n : String) (h : (l.map (·.1)).Nodup) : firstOf l.reverse n = firstOf l n := by
  induction l with
  | nil => rfl
  | cons x l ih =>
    rw [List.map_cons, List.nodup_cons] at h
    rw [List.reverse_cons]
    by_cases hx : x.1 = n
    · have : n ∉ l.reverse.map (·.1) := by rw [List.map_reverse, List.mem_reverse]; exact hx ▸ h.1
      unfold firstOf
      rw [List.find?_append]
      have hn : (l.reverse.find? fun y => y.1 = n) = none := by
        rw [List.find?_eq_none]
        intro y hy
        have : y.1 ≠ n := fun e => this (e ▸ List.mem_map.mpr ⟨y, hy, rfl⟩)
        simp [this]
      rw [hn]
      simp [hx]
    · have e1 : firstOf (x :: l) n = firstOf l n := by unfold firstOf; rw [List.find?_cons_of_neg (by simp [hx])]
      rw [e1, ← ih h.2]
      unfold firstOf
      rw [List.find?_append]
      have : ([x].find? fun y => y.1 = n) = none := by simp [hx]
      rw [this]
      simp

/-- C66: a reader that takes the last of members with the same name gets every stream's own values. -/
theorem last_members (l : List SendStat) (i : Nat) (s : SendStat) (h : l[i]? = some s) (n : String) (hn : n ∈ names) :
    ∃ o, (tellStreams [] l)[i]? = some o ∧ lastOf o n = firstOf s.members n := by
  obtain ⟨pre, e⟩ := tellStreams_get l [] i s h
  refine ⟨_, e, ?_⟩
  unfold lastOf
  rw [List.reverse_append, firstOf_append _ _ _ (by rw [List.map_reverse, List.mem_reverse, members_names]; exact hn),
    firstOf_reverse _ _ (by rw [members_names]; exact names_nodup)]

theorem tellStreams_first (l : List SendStat) (acc : List (String × Nat)) (n : String) (hn : n ∈ acc.map (·.1)) :
    ∀ o ∈ tellStreams acc l, firstOf o n = firstOf acc n := by
  induction l generalizing acc with
  | nil => intro o ho; cases ho
  | cons x l ih =>
    intro o ho
    rw [tellStreams, List.mem_cons] at ho
    have h1 := firstOf_append acc x.members n hn
    rcases ho with rfl | ho
    · exact h1
    · rw [ih (acc ++ x.members) (by rw [List.map_append, List.mem_append]; exact Or.inl hn) o ho, h1]

/-- C66, recorded: one object is used for all streams of a connection, so that a reader that takes the first (as this project's
own) gets the first stream's values for all of them. -/
theorem first_members (s : SendStat) (l : List SendStat) (n : String) (hn : n ∈ names) :
    ∀ o ∈ tellStreams [] (s :: l), firstOf o n = firstOf s.members n := by
  intro o ho
  rw [tellStreams, List.mem_cons] at ho
  rcases ho with rfl | ho
  · rfl
  · exact tellStreams_first l s.members n (by rw [members_names]; exact hn) o ho

/-! ## Examples -/

/-- Two measurements with three reports. -/
theorem send_example : let s := ({} : SendStat).run [(125000, 1000000, [⟨1, 3, 20, 100⟩, ⟨2, 0, 50, 40⟩]), (250000, 1000000, [⟨1, 10, 30, 60⟩])]
    s.rate = 2000 ∧ s.rateMin = 1000 ∧ s.rateMax = 2000 ∧ s.lossMin = 0 ∧ s.lossMax = 10 ∧ s.rttMin = 20 ∧ s.rttMax = 50 ∧ s.jitMin = 40 ∧ s.jitMax = 100 ∧ s.ssrc = 1 := by decide

/-- A connection with two streams: the second one's object says both. -/
theorem shadow_example : (tellStreams [] [{ ssrc := 1 }, { ssrc := 2 }])[1]?.map (fun o => (firstOf o "SSRC", lastOf o "SSRC", o.length)) = some (some 1, some 2, 26) := by decide

/-- C66, recorded: a loss of 200 in 256 at every report is told as at least 100. -/
theorem loss_capped : (({} : SendStat).run [(0, 1, [⟨1, 200, 0, 0⟩])]).lossMin = 100 := by decide

/-- Before any time has passed the rate is told as 0. -/
example : (({} : SendStat).run [(125000, 0, [])]).rate = 0 ∧ (({} : SendStat).run [(125000, 0, [])]).rateMax = 0 := by decide

end Lms.NetStats
