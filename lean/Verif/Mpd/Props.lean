import Verif.Mpd.Lemmas

/-!
# C18 (the manifest window) and C51 (representations in the manifest)
-/

namespace Lms.Mpd

/-! ## Specification of the timeline -/

/-- The timeline seen from outside: everything ever listed, in order, how many of the last of them are
shown, and the bound in force. -/
structure Spec where
  bound : Nat
  all : List (Nat × Nat)
  shown : Nat
  reps : List Int

/-- The last `n` elements. -/
def lastN {α : Type} (n : Nat) (l : List α) : List α := l.drop (l.length - n)

def Spec.window (t : Spec) : List (Nat × Nat) := lastN t.shown t.all

/-- The segments that disappear from the timeline when one more is listed. -/
def Spec.dropped (t : Spec) : List (Nat × Nat) := t.window.take (t.shown + 1 - t.bound)

def Spec.init : Spec := { bound := 2, all := [], shown := 0, reps := [] }

/-- A new segment is shown together with as many of the most recent ones as the bound allows; the report
names the last segment that disappeared, or 0. -/
def Spec.step (t : Spec) : Op → Spec × Out
  | .configure writable named _ _ maxSegment segDur =>
    if writable ∧ named ∧ segDur ≠ 0 then ({ t with bound := max 2 maxSegment }, .done true) else (t, .done false)
  | .announce ts dur written =>
    if t.reps ≠ [] ∧ t.reps.length ≤ written then
      ({ t with all := t.all ++ [(ts, dur)], shown := min (t.shown + 1) t.bound },
       .listed (some ((t.dropped.getLast?.map Prod.fst).getD 0)))
    else (t, .listed none)
  | .addRep id => if id ∈ t.reps then (t, .done false) else ({ t with reps := t.reps ++ [id] }, .done true)
  | .delRep id =>
    if id ∈ t.reps then ({ t with reps := t.reps.filter (· ≠ id) }, .done true) else (t, .done false)

structure Rel (s : State) (t : Spec) : Prop where
  hb : s.maxSeg = t.bound
  h2 : 2 ≤ t.bound
  hw : s.win = t.window
  hs : t.shown ≤ t.all.length
  hr : s.reps = t.reps

theorem Rel.win_length {s : State} {t : Spec} (h : Rel s t) : s.win.length = t.shown := by
  rw [h.hw]; simp only [Spec.window, lastN, List.length_drop]; have := h.hs; omega

theorem step_rel (s : State) (t : Spec) (op : Op) (h : Rel s t) :
    ∃ s', step s op = .ok (s', (t.step op).2) ∧ Rel s' (t.step op).1 := by
  have hlen := h.win_length
  obtain ⟨hb, h2, hw, hs, hr⟩ := h
  cases op with
  | configure w n b mb ms sd =>
    simp only [step, dasherConfigure, Spec.step]
    cases w
    · exact ⟨s, rfl, hb, h2, hw, hs, hr⟩
    · cases n
      · exact ⟨s, rfl, hb, h2, hw, hs, hr⟩
      · by_cases hd : sd = 0
        · subst hd; exact ⟨s, rfl, hb, h2, hw, hs, hr⟩
        · simp only [Bool.not_true, Bool.false_eq_true, if_false, Bool.false_or, beq_iff_eq, hd, ne_eq,
            not_false_iff, and_self, if_true]
          refine ⟨_, rfl, ?_, ?_, hw, hs, hr⟩
          · simp only [configure, MIN_SEGMENT]; split <;> omega
          · show 2 ≤ max 2 ms; omega
  | announce ts dur written =>
    simp only [step, announce, Spec.step]
    by_cases h0 : s.reps = []
    · rw [← hr, h0]
      exact ⟨s, by simp, hb, h2, hw, hs, hr⟩
    · have h0' : s.reps.isEmpty = false := by
        cases he : s.reps with
        | nil => exact absurd he h0
        | cons _ _ => rfl
      rw [h0']
      by_cases hwr : written < s.reps.length
      · rw [if_neg (by simp), if_pos hwr, if_neg (by rw [← hr]; omega)]
        exact ⟨_, rfl, hb, h2, hw, hs, hr⟩
      · rw [if_neg (by simp), if_neg hwr, if_pos (by rw [← hr]; exact ⟨h0, by omega⟩),
          updateTimestamp_spec _ _ _ _ (by omega)]
        simp only [Outcome.bind_ok]
        have key : (if hh : s.maxSeg ≤ s.win.length then (s.win[s.win.length - s.maxSeg]'(by omega)).1 else 0) =
            (t.dropped.getLast?.map Prod.fst).getD 0 := by
          simp only [Spec.dropped, ← hw, ← hb, ← hlen]
          split
          · rename_i hh
            rw [List.getLast?_eq_getElem?]
            have e1 : (s.win.take (s.win.length + 1 - s.maxSeg)).length = s.win.length + 1 - s.maxSeg := by
              rw [List.length_take]; omega
            rw [e1, List.getElem?_take_of_lt (by omega)]
            have e2 : s.win.length + 1 - s.maxSeg - 1 = s.win.length - s.maxSeg := by omega
            rw [e2, List.getElem?_eq_getElem (by omega)]
            rfl
          · rename_i hh
            have e1 : s.win.length + 1 - s.maxSeg = 0 := by omega
            rw [e1]; rfl
        refine ⟨_, congrArg Outcome.ok (Prod.ext rfl (congrArg (fun x => Out.listed (some x)) key)), hb, h2, ?_, ?_, hr⟩
        · simp only [Spec.window, lastN]
          rw [hw]
          simp only [Spec.window, lastN]
          rw [hw] at hlen
          simp only [Spec.window, lastN] at hlen
          rw [hlen, ← List.drop_append_of_le_length (by omega), List.drop_drop]
          congr 1
          simp only [List.length_append, List.length_cons, List.length_nil]
          omega
        · simp only [List.length_append, List.length_cons, List.length_nil]; omega
  | addRep id =>
    simp only [step, Spec.step, hr]
    split
    · exact ⟨_, rfl, hb, h2, hw, hs, hr⟩
    · exact ⟨_, rfl, hb, h2, hw, hs, rfl⟩
  | delRep id =>
    simp only [step, Spec.step, hr]
    split
    · exact ⟨_, rfl, hb, h2, hw, hs, rfl⟩
    · exact ⟨_, rfl, hb, h2, hw, hs, hr⟩

/-! ## C18 -/

/-- **C18 (the window).**  For every history of configurations, announcements and changes of the
representations, the timeline shows exactly the most recent segments in order, and the reports are those of
the specification; no undefined behaviour occurs. -/
theorem timeline_refines (base : Nat) (ops : List Op) :
    ∃ s, runOps step (State.init base) ops = .ok (s, (runSpec Spec.step Spec.init ops).2) ∧
      s.win = (runSpec Spec.step Spec.init ops).1.window ∧
      s.maxSeg = (runSpec Spec.step Spec.init ops).1.bound := by
  obtain ⟨s, h1, h2⟩ := runOps_refines step Spec.step (fun _ => True) Rel
    (fun s t op _ h => step_rel s t op h) ops (State.init base) Spec.init (fun _ _ => trivial)
    ⟨rfl, Nat.le_refl _, rfl, Nat.le_refl _, rfl⟩
  exact ⟨s, h1, h2.hw, h2.hb⟩

/-- **C18 (the bound).**  After a listing there are at most as many segments as the bound in force, and the
last one shown is the one just listed. -/
theorem window_bounded (base : Nat) (ops : List Op) (ts dur written : Nat) (s : State) (outs : List Out)
    (rm : Nat)
    (h : runOps step (State.init base) (ops ++ [.announce ts dur written]) = .ok (s, outs ++ [.listed (some rm)])) :
    s.win.length ≤ s.maxSeg ∧ s.win.getLast? = some (ts, dur) := by
  obtain ⟨s1, h1, hrel⟩ := runOps_refines step Spec.step (fun _ => True) Rel
    (fun s t op _ h => step_rel s t op h) ops (State.init base) Spec.init (fun _ _ => trivial)
    ⟨rfl, Nat.le_refl _, rfl, Nat.le_refl _, rfl⟩
  rw [runOps_append, h1] at h
  obtain ⟨s2, h3, hrel2⟩ := step_rel s1 _ (.announce ts dur written) hrel
  simp only [Outcome.bind_ok, runOps, h3] at h
  injection h with h
  injection h with ha hb
  subst ha
  have hlast := List.append_inj_right' hb (by simp)
  injection hlast with hlast _
  have hlen := hrel2.win_length
  simp only [Spec.step] at hlast hlen hrel2
  split at hlast
  · rename_i hc
    rw [if_pos hc] at hlen hrel2
    have hmb := hrel2.hb
    simp only at hmb hlen
    refine ⟨by omega, ?_⟩
    rw [hrel2.hw]
    simp only [Spec.window, lastN]
    have h2 := hrel.h2
    rw [List.getLast?_drop, if_neg]
    · simp
    · simp only [List.length_append, List.length_cons, List.length_nil]; omega
  · cases hlast

/-- **C18 (a fixed bound).**  While the bound does not change, the timeline shows exactly the last `bound`
segments listed (or all, if fewer). -/
theorem fixed_bound_shows_last (t : Spec) (hs : t.shown = min t.all.length t.bound)
    (ops : List Op) (hops : ∀ op ∈ ops, ∀ w n b mb ms sd, op = .configure w n b mb ms sd → max 2 ms = t.bound) :
    (runSpec Spec.step t ops).1.window = lastN t.bound (runSpec Spec.step t ops).1.all := by
  have main : ∀ (ops : List Op) (t : Spec), t.shown = min t.all.length t.bound →
      (∀ op ∈ ops, ∀ w n b mb ms sd, op = .configure w n b mb ms sd → max 2 ms = t.bound) →
      (runSpec Spec.step t ops).1.shown =
        min (runSpec Spec.step t ops).1.all.length (runSpec Spec.step t ops).1.bound ∧
      (runSpec Spec.step t ops).1.bound = t.bound := by
    intro ops
    induction ops with
    | nil => intro t h _; exact ⟨h, rfl⟩
    | cons op ops ih =>
      intro t h hops
      simp only [runSpec]
      have hstep : (t.step op).1.shown = min (t.step op).1.all.length (t.step op).1.bound ∧
          (t.step op).1.bound = t.bound := by
        cases op with
        | configure w n b mb ms sd =>
          have hm := hops _ (by simp) w n b mb ms sd rfl
          simp only [Spec.step]
          split
          · simp only; rw [hm]; exact ⟨h, rfl⟩
          · exact ⟨h, rfl⟩
        | announce ts dur written =>
          simp only [Spec.step]
          split
          · simp only [List.length_append, List.length_cons, List.length_nil]; exact ⟨by omega, trivial⟩
          · exact ⟨h, rfl⟩
        | addRep id => simp only [Spec.step]; split <;> exact ⟨h, rfl⟩
        | delRep id => simp only [Spec.step]; split <;> exact ⟨h, rfl⟩
      obtain ⟨i1, i2⟩ := ih (t.step op).1 hstep.1 (by
        intro o ho w n b mb ms sd he
        rw [hstep.2]
        exact hops o (List.mem_cons_of_mem _ ho) w n b mb ms sd he)
      exact ⟨i1, by rw [i2, hstep.2]⟩
  obtain ⟨h1, h2⟩ := main ops t hs hops
  simp only [Spec.window, lastN]
  congr 1
  rw [h1, h2]
  omega

/-- **C18 (reports).**  When the timeline is within its bound, listing a segment drops at most one, and
reports exactly that one. -/
theorem one_dropped_one_reported (t : Spec) (h : t.shown ≤ t.bound) (hs : t.shown ≤ t.all.length) :
    t.dropped = (t.window.take (if t.shown = t.bound then 1 else 0)) ∧ t.dropped.length ≤ 1 := by
  simp only [Spec.dropped]
  split
  · rename_i e
    have : t.shown + 1 - t.bound = 1 := by omega
    rw [this]
    exact ⟨rfl, by rw [List.length_take]; omega⟩
  · have : t.shown + 1 - t.bound = 0 := by omega
    rw [this]
    exact ⟨rfl, by simp⟩

/-! ### Files -/

/-- The files on disk are exactly those the timeline lists, for every representation. -/
def InSync (s : State) : Prop :=
  ∀ i t, s.disk s.base i t = true ↔ i ∈ s.reps ∧ t ∈ s.win.map Prod.fst

/-- What the code relies on: start times are positive and not listed already, every file can be written, the
folder and base name stay, the bound is not lowered below what is shown, and representations only change
while nothing is listed. -/
def Steady (s : State) : Op → Prop
  | .configure w n b _ ms sd => w = true → n = true → sd ≠ 0 → b = s.base ∧ s.win.length ≤ max 2 ms
  | .announce ts _ written => 0 < ts ∧ ts ∉ s.win.map Prod.fst ∧ s.reps.length ≤ written
  | .addRep _ => s.win = []
  | .delRep _ => s.win = []

/-- Every operation is steady in the state it meets. -/
def SteadyRun : State → List Op → Prop
  | _, [] => True
  | s, op :: ops => Steady s op ∧ ∀ s' o, step s op = .ok (s', o) → SteadyRun s' ops

structure SyncInv (s : State) : Prop where
  h2 : 2 ≤ s.maxSeg
  hlen : s.win.length ≤ s.maxSeg
  hnd : (s.win.map Prod.fst).Nodup
  hpos : ∀ t ∈ s.win.map Prod.fst, 0 < t
  hsync : InSync s

theorem sync_step {s s' : State} {op : Op} {o : Out} (h : SyncInv s) (hs : Steady s op)
    (he : step s op = .ok (s', o)) : SyncInv s' := by
  obtain ⟨h2, hlen, hnd, hpos, hsync⟩ := h
  cases op with
  | configure w n b mb ms sd =>
    simp only [step, dasherConfigure] at he
    (repeat' split at he) <;> cases he
    · exact ⟨h2, hlen, hnd, hpos, hsync⟩
    · exact ⟨h2, hlen, hnd, hpos, hsync⟩
    · rename_i hw hn
      simp only [Bool.not_eq_true', Bool.not_eq_false, Bool.or_eq_true, beq_iff_eq, not_or] at hw hn
      obtain ⟨hb, hl⟩ := hs hw hn.1 hn.2
      subst hb
      refine ⟨?_, ?_, hnd, hpos, hsync⟩
      · simp only [configure, MIN_SEGMENT]; split <;> omega
      · simp only [configure, MIN_SEGMENT]; split <;> omega
  | announce ts dur written =>
    obtain ⟨hts, hfresh, hwr⟩ := hs
    simp only [step, announce] at he
    split at he
    · cases he; exact ⟨h2, hlen, hnd, hpos, hsync⟩
    · rw [if_neg (by omega), updateTimestamp_spec _ _ _ _ (by omega)] at he
      simp only [Outcome.bind_ok, Outcome.ok.injEq, Prod.mk.injEq] at he
      obtain ⟨he, _⟩ := he
      subst he
      by_cases hfull : s.maxSeg ≤ s.win.length
      · have hlen' : s.win.length = s.maxSeg := by omega
        obtain ⟨x, l, hw⟩ : ∃ x l, s.win = x :: l := by
          cases hw : s.win with
          | nil => rw [hw] at hlen'; simp at hlen'; omega
          | cons x l => exact ⟨x, l, rfl⟩
        have ed : s.win.length + 1 - s.maxSeg = 1 := by omega
        rw [hw] at hnd hpos hfresh
        simp only [List.map_cons, List.nodup_cons, List.mem_cons, not_or] at hnd hpos hfresh
        have e0 : s.win.length - s.maxSeg = 0 := by omega
        have hget : (s.win[s.win.length - s.maxSeg]'(by omega)).1 = x.1 := by
          have e : s.win[s.win.length - s.maxSeg]? = some x := by rw [e0, hw]; rfl
          rw [List.getElem?_eq_getElem (by omega)] at e
          rw [Option.some.inj e]
        rw [dif_pos hfull, hget, if_pos (hpos x.1 (Or.inl rfl))]
        have hd : (s.win ++ [(ts, dur)]).drop (s.win.length + 1 - s.maxSeg) = l ++ [(ts, dur)] := by
          rw [ed, hw]; rfl
        refine ⟨h2, ?_, ?_, ?_, ?_⟩
        · show (List.drop _ _).length ≤ s.maxSeg
          rw [hd]; rw [hw] at hlen'; simp at hlen' ⊢; omega
        · show (List.map Prod.fst (List.drop _ _)).Nodup
          rw [hd, List.map_append]
          simp only [List.map_cons, List.map_nil]
          rw [List.nodup_append]
          refine ⟨hnd.2, by simp, ?_⟩
          intro a ha b hb
          simp only [List.mem_cons, List.not_mem_nil, or_false] at hb
          subst hb
          rintro rfl
          exact hfresh.2 ha
        · intro t ht
          simp only [hd, List.map_append, List.map_cons, List.map_nil, List.mem_append, List.mem_cons,
            List.not_mem_nil, or_false] at ht
          rcases ht with ht | rfl
          · exact hpos t (Or.inr ht)
          · exact hts
        · intro i t
          simp only [hd, setFiles, List.map_append, List.map_cons, List.map_nil, List.mem_append, List.mem_cons,
            List.not_mem_nil, or_false, true_and]
          have hold := hsync i t
          rw [hw] at hold
          simp only [List.map_cons, List.mem_cons] at hold
          by_cases hi : i ∈ s.reps
          · by_cases htx : t = x.1
            · subst htx
              simp only [hi, true_and, if_true]
              constructor
              · intro hh; exact absurd hh (by simp)
              · rintro (h | h)
                · exact absurd h hnd.1
                · exact absurd h.symm hfresh.1
            · by_cases htt : t = ts
              · subst htt; simp [hi, htx]
              · simp only [hi, true_and, htx, htt, if_false, hold, false_or, or_false]
          · simp only [hi, false_and, if_false, hold]
      · have ed : s.win.length + 1 - s.maxSeg = 0 := by omega
        rw [dif_neg hfull, if_neg (by omega)]
        have hd : (s.win ++ [(ts, dur)]).drop (s.win.length + 1 - s.maxSeg) = s.win ++ [(ts, dur)] := by
          rw [ed]; rfl
        refine ⟨h2, ?_, ?_, ?_, ?_⟩
        · show (List.drop _ _).length ≤ s.maxSeg
          rw [hd]; simp; omega
        · show (List.map Prod.fst (List.drop _ _)).Nodup
          rw [hd, List.map_append]
          simp only [List.map_cons, List.map_nil]
          rw [List.nodup_append]
          refine ⟨hnd, by simp, ?_⟩
          intro a ha b hb
          simp only [List.mem_cons, List.not_mem_nil, or_false] at hb
          subst hb
          rintro rfl
          exact hfresh ha
        · intro t ht
          simp only [hd, List.map_append, List.map_cons, List.map_nil, List.mem_append, List.mem_cons,
            List.not_mem_nil, or_false] at ht
          rcases ht with ht | rfl
          · exact hpos t ht
          · exact hts
        · intro i t
          simp only [hd, setFiles, List.map_append, List.map_cons, List.map_nil, List.mem_append, List.mem_cons,
            List.not_mem_nil, or_false, true_and]
          have hold := hsync i t
          by_cases hi : i ∈ s.reps
          · by_cases htt : t = ts
            · subst htt; simp [hi]
            · simp only [hi, true_and, htt, if_false, hold, or_false]
          · simp only [hi, false_and, if_false, hold]
  | addRep id =>
    have hnil : s.win = [] := hs
    simp only [step] at he
    split at he
    · cases he; exact ⟨h2, hlen, hnd, hpos, hsync⟩
    · cases he
      refine ⟨h2, hlen, hnd, hpos, ?_⟩
      intro i t
      have := hsync i t
      simp [hnil] at this ⊢
      exact this
  | delRep id =>
    have hnil : s.win = [] := hs
    simp only [step] at he
    split at he
    · cases he
      refine ⟨h2, hlen, hnd, hpos, ?_⟩
      intro i t
      have := hsync i t
      simp [hnil] at this ⊢
      exact this
    · cases he; exact ⟨h2, hlen, hnd, hpos, hsync⟩

/-- **C18 (files).**  Along every steady history the files on disk are exactly those listed in the
timeline, for every representation. -/
theorem files_match_timeline (base : Nat) (ops : List Op) (hst : SteadyRun (State.init base) ops) (s : State)
    (outs : List Out) (h : runOps step (State.init base) ops = .ok (s, outs)) : InSync s := by
  have main : ∀ (ops : List Op) (s0 : State) (outs : List Out), SyncInv s0 → SteadyRun s0 ops →
      runOps step s0 ops = .ok (s, outs) → SyncInv s := by
    intro ops
    induction ops with
    | nil => intro s0 outs hi _ h; simp [runOps] at h; rw [← h.1]; exact hi
    | cons op ops ih =>
      intro s0 outs hi hr h
      obtain ⟨s1, o, os, h1, h3, _⟩ := runOps_cons_ok h
      exact ih s1 os (sync_step hi hr.1 h1) (hr.2 s1 o h1) h3
  refine (main ops (State.init base) outs ⟨Nat.le_refl _, by simp [State.init], by simp [State.init],
    by simp [State.init], ?_⟩ hst h).hsync
  intro i t
  simp [State.init]

/-- The state after a history. -/
def after (ops : List Op) : Option State :=
  match runOps step (State.init 0) ops with
  | .ok (s, _) => some s
  | _ => none

/-- **C18 (recorded exception).**  Lowering the bound drops several segments at the next listing, but only
the last one is reported and removed from disk. -/
theorem lowered_bound_leaves_files :
    (after [.configure true true 0 0 4 1, .addRep 1, .announce 10 1 1, .announce 20 1 1, .announce 30 1 1,
      .announce 40 1 1, .configure true true 0 0 2 1, .announce 50 1 1]).map
      (fun s => (s.win.map Prod.fst, [10, 20, 30, 40, 50].map (s.disk 0 1))) =
    some ([40, 50], [true, true, false, true, true]) := by decide

/-- **C18 (recorded exception).**  A segment that starts at time 0 is dropped but never removed. -/
theorem segment_at_zero_is_never_removed :
    (after [.addRep 1, .announce 0 1 1, .announce 10 1 1, .announce 20 1 1]).map
      (fun s => (s.win.map Prod.fst, [0, 10, 20].map (s.disk 0 1))) =
    some ([10, 20], [true, true, true]) := by decide

/-- **C18 (recorded exception).**  When a start time is announced twice, dropping the first removes the
file that the second still lists. -/
theorem repeated_start_time_removes_listed_file :
    (after [.addRep 1, .announce 10 1 1, .announce 10 1 1, .announce 20 1 1]).map
      (fun s => (s.win.map Prod.fst, [10, 20].map (s.disk 0 1))) =
    some ([10, 20], [false, true]) := by decide

/-- **C18 (recorded exception).**  After a change of folder or base name the files listed before are neither
in the new place nor ever removed from the old one. -/
theorem changed_folder_orphans_files :
    (after [.addRep 1, .announce 10 1 1, .announce 20 1 1, .configure true true 7 0 2 1, .announce 30 1 1,
      .announce 40 1 1]).map
      (fun s => ([10, 20, 30, 40].map (s.disk 0 1), [10, 20, 30, 40].map (s.disk 7 1))) =
    some ([true, true, false, false], [false, false, true, true]) := by decide

/-- **C18 (recorded exception).**  The files of a representation that is removed stay on disk. -/
theorem removed_representation_leaves_files :
    (after [.addRep 1, .addRep 2, .announce 10 1 2, .delRep 2, .announce 20 1 1, .announce 30 1 1,
      .announce 40 1 1]).map
      (fun s => (s.win.map Prod.fst, s.reps, [10, 20, 30, 40].map (s.disk 0 2))) =
    some ([30, 40], [1], [true, false, false, false]) := by decide

/-- **C18 (recorded exception).**  If one file cannot be written the segment is not listed, but the files
written before it stay. -/
theorem failed_write_leaves_files :
    (after [.addRep 1, .addRep 2, .announce 10 1 1]).map (fun s => (s.win, s.disk 0 1 10, s.disk 0 2 10)) =
    some ([], true, false) := by decide

/-- **C18 (buffer time).**  As long as the products fit in 32 bits, the buffer time announced lies between
two segments and the whole window, and equals the request when the request does. -/
theorem buffer_time_within_window (s : State) (mb ms sd : Nat) (h : max 2 ms * sd < 2 ^ 32) :
    let s' := configure s mb ms sd
    s'.maxSeg = max 2 ms ∧ 2 * sd ≤ s'.minBuf ∧ s'.minBuf ≤ s'.maxSeg * sd ∧
    (2 * sd ≤ mb → mb ≤ s'.maxSeg * sd → s'.minBuf = mb) := by
  have hm : (if ms ≥ MIN_SEGMENT then ms else MIN_SEGMENT) = max 2 ms := by
    simp only [MIN_SEGMENT]; split <;> omega
  have h2 : 2 * sd ≤ max 2 ms * sd := Nat.mul_le_mul_right _ (by omega)
  simp only [configure, hm]
  rw [Nat.mod_eq_of_lt h, Nat.mod_eq_of_lt (by omega : 2 * sd < 2 ^ 32)]
  refine ⟨trivial, ?_, ?_, ?_⟩
  · split
    · exact h2
    · split <;> omega
  · split
    · exact Nat.le_refl _
    · split <;> omega
  · intro ha hb
    split
    · omega
    · simp only [ha, ge_iff_le, if_true]

/-! ## C51: representations -/

/-- Specification: what is described for each name. -/
def described (f : String → Option VRep) : VOp → String → Option VRep
  | .update i r _ => fun x => if x = i then some r else f x
  | .remove i => fun x => if x = i then none else f x

theorem lookup_append_ne {l : List (String × VRep)} {id x : String} {r : VRep} (h : x ≠ id) :
    (l ++ [(id, r)]).lookup x = l.lookup x := by
  induction l with
  | nil => have hb : (x == id) = false := by simpa using h
           simp [List.lookup, hb]
  | cons y l ih =>
    simp only [List.cons_append, List.lookup]
    split
    · rfl
    · exact ih

theorem lookup_append_self {l : List (String × VRep)} {id : String} {r : VRep} (h : l.lookup id = none) :
    (l ++ [(id, r)]).lookup id = some r := by
  induction l with
  | nil => simp [List.lookup]
  | cons y l ih =>
    simp only [List.lookup] at h
    simp only [List.cons_append, List.lookup]
    cases hb : (id == y.1) with
    | true => rw [hb] at h; cases h
    | false => rw [hb] at h; exact ih h

theorem lookup_map {l : List (String × VRep)} {id : String} {r : VRep} {x : String} :
    (l.map fun y => if y.1 = id then (id, r) else y).lookup x =
      if x = id then (l.lookup id).map (fun _ => r) else l.lookup x := by
  induction l with
  | nil => simp [List.lookup]
  | cons y l ih =>
    rcases y with ⟨a, b⟩
    by_cases ha : a = id
    · subst ha
      by_cases hx : x = a
      · subst hx; simp [List.lookup]
      · have hb : (x == a) = false := by simpa using hx
        simp only [List.map_cons, if_true, List.lookup, hb, ih, hx, if_false]
    · by_cases hx : x = a
      · subst hx; simp [List.lookup, ha]
      · have hb : (x == a) = false := by simpa using hx
        have hc : (id == a) = false := by simpa using fun e => ha e.symm
        simp only [List.map_cons, ha, if_false, List.lookup, hb, hc, ih]

theorem lookup_filter {l : List (String × VRep)} {id x : String} :
    (l.filter fun y => decide (y.1 ≠ id)).lookup x = if x = id then none else l.lookup x := by
  induction l with
  | nil => simp [List.lookup]
  | cons y l ih =>
    rcases y with ⟨a, b⟩
    by_cases ha : a = id
    · subst ha
      simp only [ne_eq, not_true_eq_false, decide_false, Bool.false_eq_true, not_false_iff, List.filter_cons_of_neg]
      rw [ih]
      by_cases hx : x = a
      · simp [hx]
      · have hb : (x == a) = false := by simpa using hx
        simp only [hx, if_false, List.lookup, hb]
    · simp only [ne_eq, ha, not_false_iff, decide_true, List.filter_cons_of_pos, List.lookup]
      by_cases hx : x = a
      · subst hx; simp [ha]
      · have hb : (x == a) = false := by simpa using hx
        simp only [hb, ih]

/-- **C51.**  After any sequence of updates and removals the manifest describes exactly the
representations updated and not removed since, each with the values of its last update. -/
theorem manifest_describes_representations (ops : List VOp) (id : String) :
    (runSpec VSet.step VSet.init ops).1.get id = (ops.foldl described (fun _ => none)) id := by
  have main : ∀ (ops : List VOp) (s : VSet) (f : String → Option VRep), (∀ id, s.get id = f id) →
      (runSpec VSet.step s ops).1.get id = (ops.foldl described f) id := by
    intro ops
    induction ops with
    | nil => intro s f h; exact h id
    | cons op ops ih =>
      intro s f h
      simp only [runSpec, List.foldl_cons]
      apply ih
      intro x
      cases op with
      | update i r fps =>
        simp only [VSet.step, VSet.update, described]
        cases hg : s.get i with
        | none =>
          simp only [VSet.get] at hg ⊢
          by_cases hx : x = i
          · subst hx; simp only [if_true]; exact lookup_append_self hg
          · simp only [hx, if_false]; rw [lookup_append_ne hx]; exact h x
        | some v =>
          simp only [VSet.get] at hg ⊢
          rw [lookup_map]
          by_cases hx : x = i
          · subst hx; simp [hg]
          · simp only [hx, if_false]; exact h x
      | remove i =>
        simp only [VSet.step, VSet.remove, described]
        cases hg : s.get i with
        | none =>
          simp only
          by_cases hx : x = i
          · subst hx; simp [hg]
          · simp only [hx, if_false]; exact h x
        | some v =>
          simp only [VSet.get]
          rw [lookup_filter]
          split
          · rfl
          · exact h x
  exact main ops VSet.init (fun _ => none) (fun _ => rfl)

/-- **C51 (maximum size).**  The maximum width and height announced cover every representation described
(and never shrink, even when the largest is removed). -/
theorem maximum_covers_representations (ops : List VOp) :
    let s := (runSpec VSet.step VSet.init ops).1
    ∀ x ∈ s.reps, x.2.width ≤ s.maxWidth ∧ x.2.height ≤ s.maxHeight := by
  have main : ∀ (ops : List VOp) (s : VSet), (∀ x ∈ s.reps, x.2.width ≤ s.maxWidth ∧ x.2.height ≤ s.maxHeight) →
      ∀ x ∈ (runSpec VSet.step s ops).1.reps, x.2.width ≤ (runSpec VSet.step s ops).1.maxWidth ∧
        x.2.height ≤ (runSpec VSet.step s ops).1.maxHeight := by
    intro ops
    induction ops with
    | nil => intro s h; exact h
    | cons op ops ih =>
      intro s h
      simp only [runSpec]
      apply ih
      cases op with
      | update i r fps =>
        simp only [VSet.step, VSet.update]
        have hb : ∀ a b : Int, a ≤ (if a < b then b else a) ∧ b ≤ (if a < b then b else a) := by
          intro a b; split <;> omega
        have hw := hb s.maxWidth r.width
        have hh := hb s.maxHeight r.height
        intro x hx
        cases hg : s.get i with
        | none =>
          simp only [hg, List.mem_append, List.mem_cons, List.not_mem_nil, or_false] at hx
          rcases hx with hx | rfl
          · exact ⟨Int.le_trans (h x hx).1 hw.1, Int.le_trans (h x hx).2 hh.1⟩
          · exact ⟨hw.2, hh.2⟩
        | some v =>
          simp only [hg, List.mem_map] at hx
          obtain ⟨y, hy, rfl⟩ := hx
          split
          · exact ⟨hw.2, hh.2⟩
          · exact ⟨Int.le_trans (h y hy).1 hw.1, Int.le_trans (h y hy).2 hh.1⟩
      | remove i =>
        simp only [VSet.step, VSet.remove]
        cases hg : s.get i with
        | none => exact h
        | some v =>
          intro x hx
          exact h x (List.mem_filter.1 hx).1
  exact main ops VSet.init (by simp [VSet.init])

/-- The frame rates requested, in order. -/
def rates : List VOp → List Int
  | [] => []
  | .update _ _ fps :: ops => fps :: rates ops
  | .remove _ :: ops => rates ops

/-- **C51 (frame rate).**  The frame rate shown is that of the last update, 0 before the first. -/
theorem frame_rate_of_last_update (ops : List VOp) :
    (runSpec VSet.step VSet.init ops).1.frameRate = (rates ops).getLast?.getD 0 := by
  have main : ∀ (ops : List VOp) (s : VSet),
      (runSpec VSet.step s ops).1.frameRate = (rates ops).getLast?.getD s.frameRate := by
    intro ops
    induction ops with
    | nil => intro s; rfl
    | cons op ops ih =>
      intro s
      simp only [runSpec]
      rw [ih]
      cases op with
      | update i r fps =>
        simp only [VSet.step, VSet.update, rates]
        cases rates ops with
        | nil => rfl
        | cons a l => simp [List.getLast?_cons]
      | remove i =>
        simp only [VSet.step, VSet.remove, rates]
        cases s.get i <;> rfl
  exact main ops VSet.init

/-- **C51 (recorded exception).**  Removing the largest representation leaves its size as the maximum. -/
theorem maximum_never_shrinks :
    (runSpec VSet.step VSet.init [.update "1" ⟨"c", 1920, 1080, 5⟩ 25, .update "2" ⟨"c", 640, 360, 5⟩ 25,
      .remove "1"]).1 = { reps := [("2", ⟨"c", 640, 360, 5⟩)], maxWidth := 1920, maxHeight := 1080, frameRate := 25 } := by
  decide

/-! ## Non-triviality -/

example : (after [.configure true true 0 10 3 2, .addRep 1, .announce 10 1 1, .announce 20 1 1, .announce 30 1 1,
    .announce 40 1 1]).map (fun s => (s.win.map Prod.fst, s.minBuf, [10, 20, 30, 40].map (s.disk 0 1))) =
    some ([20, 30, 40], 6, [false, true, true, true]) := by decide

/-- A steady history that drops a segment. -/
example : SteadyRun (State.init 0) [.addRep 1, .announce 10 1 1, .announce 20 1 1, .announce 30 1 1] := by
  refine ⟨rfl, fun s o h => ?_⟩; cases h
  refine ⟨by simp [Steady, State.init], fun s o h => ?_⟩; cases h
  refine ⟨by simp [Steady, State.init], fun s o h => ?_⟩; cases h
  refine ⟨by simp [Steady, State.init], fun s o h => ?_⟩; cases h
  trivial

example : (lastN 2 [1, 2, 3, 4] : List Nat) = [3, 4] := by decide

/-- The sizes described, in order. -/
def sizes : List VOp → List (Int × Int)
  | [] => []
  | .update _ r _ :: ops => (r.width, r.height) :: sizes ops
  | .remove _ :: ops => sizes ops

/-- **C51 (maximum size).**  The maximum width and height announced are the largest ever described, and 0 if none is positive. -/
theorem maximum_is_largest (ops : List VOp) :
    (runSpec VSet.step VSet.init ops).1.maxWidth = ((sizes ops).map Prod.fst).foldl max 0 ∧
    (runSpec VSet.step VSet.init ops).1.maxHeight = ((sizes ops).map Prod.snd).foldl max 0 := by
  have main : ∀ (ops : List VOp) (s : VSet),
      (runSpec VSet.step s ops).1.maxWidth = ((sizes ops).map Prod.fst).foldl max s.maxWidth ∧
      (runSpec VSet.step s ops).1.maxHeight = ((sizes ops).map Prod.snd).foldl max s.maxHeight := by
    intro ops
    induction ops with
    | nil => intro s; exact ⟨rfl, rfl⟩
    | cons op ops ih =>
      intro s
      simp only [runSpec]
      rw [(ih _).1, (ih _).2]
      cases op with
      | update i r fps =>
        simp only [VSet.step, VSet.update, sizes, List.map_cons, List.foldl_cons]
        have e : ∀ a b : Int, (if a < b then b else a) = max a b := by intro a b; omega
        rw [e, e]
        exact ⟨rfl, rfl⟩
      | remove i =>
        simp only [VSet.step, VSet.remove, sizes]
        cases s.get i <;> exact ⟨rfl, rfl⟩
  exact main ops VSet.init

example : (runSpec VSet.step VSet.init [.update "1" ⟨"c", 1920, 1080, 5⟩ 25, .remove "1", .update "2" ⟨"c", 640, 360, 5⟩ 25]).1.maxWidth = 1920 := by decide

end Lms.Mpd
