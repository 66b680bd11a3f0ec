import Verif.Rewire.Props

/-! C92: a concrete run, meeting the hypotheses of the theorems, and what happens to a newcomer no frame is
committed for. -/

namespace Lms.Rewire

open Net (S)

/-- No worker below `n` runs the filter. -/
def idleB {α : Type} (n : Nat) (x : D α) (k : Nat) : Bool :=
  (List.range n).all fun w => match x.s.pool.ph w with | .run j => j != k | _ => true

/-- `Allowed`, with workers below `n`. -/
def allowedB {α : Type} (n : Nat) (x : D α) : Op α → Bool
  | .flow op => match op.by with | some w => decide (w < n) | none => true
  | .connect w r q size _ => w != r && !x.live q && decide (3 ≤ size) && idleB n x w && idleB n x r
  | .share q k => x.live q && !(x.g.dst q).contains k && idleB n x k
  | .leave q k => x.live q && (x.g.dst q).contains k && (x.g.dst q).any (fun j => j != k) && idleB n x k &&
      ((x.s.rd q).ready || (x.s.rd q).filters.any fun e => e.1 != k && (e.2.1 || e.2.2))
  | .cut q => x.live q && idleB n x (x.g.src q) && (x.g.dst q).all (idleB n x)

/-- `AllowedRun`, with workers below `n`. -/
def checkRun {α : Type} (n : Nat) : D α → List (Op α) → Bool
  | _, [] => true
  | x, op :: ops => allowedB n x op && (match x.step op with | .ok (x', _) => checkRun n x' ops | _ => true)

/-- Workers from `n` on do nothing. -/
def Quiet {α : Type} (n : Nat) (x : D α) : Prop := ∀ w, n ≤ w → x.s.pool.ph w = .idle

theorem idleB_idle {α : Type} {n : Nat} {x : D α} (hq : Quiet n x) {k : Nat} (h : idleB n x k = true) : Idle x k := by
  intro w hw
  by_cases e : n ≤ w
  · rw [hq w e] at hw; cases hw
  · have := List.all_eq_true.1 h w (List.mem_range.2 (by omega))
    rw [hw] at this
    simp at this

theorem allowedB_allowed {α : Type} {n : Nat} {x : D α} (hq : Quiet n x) {op : Op α} (h : allowedB n x op = true) : Allowed x op := by
  cases op with
  | flow op => trivial
  | connect w r q size d =>
    simp only [allowedB, Bool.and_eq_true, decide_eq_true_eq, bne_iff_ne, Bool.not_eq_true'] at h
    obtain ⟨⟨⟨⟨a, b⟩, c⟩, d⟩, e⟩ := h
    exact ⟨a, b, c, idleB_idle hq d, idleB_idle hq e⟩
  | share q k =>
    simp only [allowedB, Bool.and_eq_true, Bool.not_eq_true'] at h
    obtain ⟨⟨a, b⟩, c⟩ := h
    exact ⟨a, by simpa using b, idleB_idle hq c⟩
  | leave q k =>
    simp only [allowedB, Bool.and_eq_true] at h
    obtain ⟨⟨⟨⟨a, b⟩, c⟩, d⟩, e⟩ := h
    refine ⟨a, by simpa using b, by simpa using c, idleB_idle hq d, fun hr => ?_⟩
    rw [hr, Bool.false_or, List.any_eq_true] at e
    obtain ⟨z, hz, h1⟩ := e
    rw [Bool.and_eq_true, bne_iff_ne] at h1
    exact ⟨z, hz, h1⟩
  | cut q =>
    simp only [allowedB, Bool.and_eq_true] at h
    obtain ⟨⟨a, b⟩, c⟩ := h
    exact ⟨a, idleB_idle hq b, fun k hk => idleB_idle hq (List.all_eq_true.1 c k hk)⟩

theorem quiet_step {α : Type} {n : Nat} {x x' : D α} (hq : Quiet n x) {op : Op α} (h : allowedB n x op = true) {o : Out α}
    (hs : x.step op = .ok (x', o)) : Quiet n x' := by
  cases op with
  | flow op =>
    simp only [D.step] at hs
    split at hs
    · cases hc : x.s.step x.g op with
      | ub => rw [hc] at hs; simp at hs
      | hang => rw [hc] at hs; simp at hs
      | ok y =>
        obtain ⟨s', o'⟩ := y
        rw [hc] at hs
        simp at hs
        obtain ⟨rfl, _⟩ := hs
        intro w hw
        show s'.pool.ph w = .idle
        rw [(Net.other_keeps hc ?_).1]
        · exact hq w hw
        · intro e
          simp only [allowedB, e, decide_eq_true_eq] at h
          omega
    · simp at hs
  | connect w r q size d => simp only [D.step] at hs; cases hs; exact hq
  | share q k => simp only [D.step] at hs; split at hs <;> cases hs; exact hq
  | leave q k => simp only [D.step] at hs; split at hs <;> cases hs; exact hq
  | cut q => simp only [D.step] at hs; split at hs <;> cases hs; exact hq

theorem checkRun_allowed {α : Type} {n : Nat} (ops : List (Op α)) : ∀ {x : D α}, Quiet n x → checkRun n x ops = true → AllowedRun x ops := by
  induction ops with
  | nil => intro _ _ _; trivial
  | cons op ops ih =>
    intro x hq h
    simp only [checkRun, Bool.and_eq_true] at h
    refine ⟨allowedB_allowed hq h.1, fun x' o hs => ?_⟩
    have h2 := h.2
    rw [hs] at h2
    exact ih (quiet_step hq h.1 hs) h2

/-- Filter 0 is a source, the others are sinks. -/
def start : D Nat := D.init (fun k => k == 0) 0 (fun _ => 0)

theorem start_quiet (n : Nat) : Quiet n start := fun _ _ => rfl

/-- The source has its turn: it commits `x` to queue `q`, the only one it writes. -/
def source (w q x : Nat) : List (Op Nat) :=
  ([.pick w 1, .begin w [], .go w, .slot w, .work w (fun p => if p = q then some x else none),
    .commit w, .commit w, .done w 0, .post w] : List (Net.Op Nat)).map .flow

/-- As `source`, for a source without a connection. -/
def alone (w : Nat) : List (Op Nat) :=
  ([.pick w 1, .begin w [], .go w, .work w (fun _ => none), .commit w, .done w 0, .post w] : List (Net.Op Nat)).map .flow

/-- A turn of a sink with one reader that gets a frame. -/
def sink (w : Nat) : List (Op Nat) :=
  ([.pick w 1, .begin w [7, 8], .look w, .go w, .work w (fun _ => none), .commit w, .drop w, .done w 0, .post w] :
    List (Net.Op Nat)).map .flow

/-- A turn of a sink with `n` readers that gets nothing. -/
def nothing (w n : Nat) : List (Op Nat) :=
  (([.pick w 1, .begin w [7, 8]] : List (Net.Op Nat)) ++ List.replicate n (Net.Op.look w) ++
    ([.skip w, .done w 0, .post w] : List (Net.Op Nat))).map .flow

/-- The filters are registered; the source is connected to filter 1 and commits a frame while filter 2 has no
connection. -/
def opening : List (Op Nat) :=
  [.flow (.add 1), .flow (.add 2), .flow (.add 0)] ++ nothing 0 0 ++ nothing 0 0 ++ [.connect 0 1 7 3 (fun _ => 0)] ++ source 0 7 5

/-- The source has its turn with both queues. -/
def both (w x y : Nat) : List (Op Nat) :=
  ([.pick w 1, .begin w [], .go w, .slot w, .slot w, .work w (fun p => if p = 7 then some x else some y),
    .commit w, .commit w, .commit w, .done w 0, .post w] : List (Net.Op Nat)).map .flow

/-- Filter 2 then begins to share the reader of filter 1, which handles the frame. -/
def joining : List (Op Nat) := opening ++ [.share 7 2] ++ sink 0

/-- The source commits two more and both sinks have their turns; filter 1 leaves the reader to filter 2 and
the source is connected to filter 1 by a new queue; the source commits to both and both sinks take. -/
def moving : List (Op Nat) :=
  joining ++ source 0 7 6 ++ nothing 1 1 ++ sink 1 ++ source 0 7 8 ++ sink 1 ++ sink 1 ++
  [.leave 7 1, .connect 0 1 8 3 (fun _ => 0)] ++ both 0 9 10 ++ sink 0 ++ sink 0

/-- The old queue is cut with a frame in it, the source commits one more, filter 2 finds nothing to read. -/
def settling : List (Op Nat) := moving ++ [.cut 7] ++ source 0 8 11 ++ nothing 0 0 ++ sink 0

theorem joining_allowed : AllowedRun start joining := checkRun_allowed (n := 2) _ (start_quiet 2) (by decide +kernel)
theorem moving_allowed : AllowedRun start moving := checkRun_allowed (n := 2) _ (start_quiet 2) (by decide +kernel)
theorem settling_allowed : AllowedRun start settling := checkRun_allowed (n := 2) _ (start_quiet 2) (by decide +kernel)

/-- What a run comes to. -/
def comes (ops : List (Op Nat)) (p : D Nat → List (Out Nat) → Bool) : Bool :=
  match runOps D.step start ops with | .ok (x, outs) => p x outs | _ => false

theorem comes_to {ops : List (Op Nat)} {P : D Nat → List (Out Nat) → Prop} [∀ x outs, Decidable (P x outs)]
    (h : comes ops (fun x outs => decide (P x outs)) = true) : ∃ x outs, runOps D.step start ops = .ok (x, outs) ∧ P x outs := by
  unfold comes at h
  cases hc : runOps D.step start ops with
  | ub => simp [hc] at h
  | hang => simp [hc] at h
  | ok y => obtain ⟨x, outs⟩ := y; simp [hc] at h; exact ⟨x, outs, rfl, h⟩

/-- A run that may be made; both sinks have seen the frames of the queue they shared in the same order, and
filter 1 that of its new queue. -/
example : ∃ x outs, runOps D.step start moving = .ok (x, outs) ∧ x.g.dst 7 = [2] ∧ x.g.dst 8 = [1] ∧
    committed 7 outs = [5, 6, 8, 9] ∧ seen 7 1 outs = [5, 6] ∧ seen 7 2 outs = [5, 6, 8] ∧ committed 8 outs = [10] ∧
    seen 8 1 outs = [10] ∧ newcomer 7 2 outs = true ∧ newcomer 8 1 outs = false ∧ unwoken 7 2 outs = false :=
  comes_to (by decide +kernel)

/-- A frame waits, and so does the filter that is to read it. -/
example : ∃ x outs, runOps D.step start moving = .ok (x, outs) ∧ 7 ∈ x.g.ins 2 ∧ unwoken 7 2 outs = false ∧
    x.s.pool.reg 2 = some 2 ∧ (x.s.ring 7).getElements = 1 ∧ 2 ∈ x.s.pool.q.queue :=
  comes_to (by decide +kernel)

/-- The source is scheduled after all these changes. -/
example : ∃ x outs, runOps D.step start settling = .ok (x, outs) ∧ x.g.periodic 0 = true ∧ x.s.pool.reg 0 = some 0 ∧
    x.s.pool.q.queue = [0] := comes_to (by decide +kernel)

/-- A step that commits, and one that processes. -/
example : ∃ x outs y, runOps D.step start (opening ++ [.share 7 2] ++ (sink 0).take 4) = .ok (x, outs) ∧
    (∃ o, x.step (.flow (.work 0 fun _ => none)) = .ok (y, .flow o) ∧ Net.handled 7 1 [o] = [5]) :=
  ⟨_, _, _, rfl, _, rfl, by decide +kernel⟩
example : ∃ x outs y, runOps D.step start (opening.take 19) = .ok (x, outs) ∧
    (∃ o, x.step (.flow (.commit 0)) = .ok (y, .flow o) ∧ Net.made 7 [o] = [5]) :=
  ⟨_, _, _, rfl, _, rfl, by decide +kernel⟩

theorem quiet_run {n : Nat} (ops : List (Op Nat)) : ∀ {x x' : D Nat} {outs : List (Out Nat)}, Quiet n x → checkRun n x ops = true →
    runOps D.step x ops = .ok (x', outs) → Quiet n x' := by
  induction ops with
  | nil => intro x x' outs hq _ hr; simp [runOps] at hr; obtain ⟨rfl, _⟩ := hr; exact hq
  | cons op ops ih =>
    intro x x' outs hq hc hr
    simp only [checkRun, Bool.and_eq_true] at hc
    cases hs : x.step op with
    | ub => simp [runOps, hs] at hr
    | hang => simp [runOps, hs] at hr
    | ok y =>
      obtain ⟨y, o⟩ := y
      have h2 := hc.2
      rw [hs] at h2
      simp only [runOps, hs, Outcome.bind_ok] at hr
      cases ht : runOps D.step y ops with
      | ub => simp [ht] at hr
      | hang => simp [ht] at hr
      | ok z =>
        obtain ⟨z, os⟩ := z
        simp [ht] at hr
        obtain ⟨rfl, _⟩ := hr
        exact ih (quiet_step hq hc.1 hs) h2 ht

/-- All is at rest: the queue that is left is empty and filter 1 has seen all there was. -/
example : ∃ x outs, runOps D.step start settling = .ok (x, outs) ∧ Net.AtRest x.g x.s ∧ 8 ∈ x.g.ins 1 ∧
    unwoken 8 1 outs = false ∧ newcomer 8 1 outs = false ∧ x.s.pool.reg 1 = some 1 ∧ committed 8 outs = [10, 11] ∧
    seen 8 1 outs = [10, 11] := by
  obtain ⟨x, outs, hr, h1, h2, h3, h4⟩ := comes_to (ops := settling) (P := fun x outs => x.s.pool.ph 0 = .idle ∧ x.s.pool.ph 1 = .idle ∧
    (∀ k ∈ x.s.pool.q.queue, x.g.periodic k = true ∧ x.g.ins k = []) ∧ 8 ∈ x.g.ins 1 ∧ unwoken 8 1 outs = false ∧
    newcomer 8 1 outs = false ∧ x.s.pool.reg 1 = some 1 ∧ committed 8 outs = [10, 11] ∧ seen 8 1 outs = [10, 11]) (by decide +kernel)
  refine ⟨x, outs, hr, ⟨fun w => ?_, h3⟩, h4⟩
  rcases w with _ | _ | w
  · exact h1
  · exact h2
  · exact quiet_run (n := 2) settling (start_quiet 2) (by decide +kernel) hr _ (by omega)

/-- **C92 (recorded).** Sharing a reader wakes nobody: the frame that lay in the queue when filter 2 began to
share its reader stays there although nobody is at work and filter 1 has done its part, and filter 2 is not in
the task queue.  The next frame committed wakes it. -/
theorem newcomer_not_woken :
    (∃ x outs, runOps D.step start joining = .ok (x, outs) ∧ AllowedRun start joining ∧ (∀ w, x.s.pool.ph w = .idle) ∧
      7 ∈ x.g.ins 2 ∧ x.s.pool.reg 2 = some 2 ∧ (x.s.ring 7).getElements = 1 ∧ seen 7 1 outs = [5] ∧
      seen 7 2 outs = [] ∧ unwoken 7 2 outs = true ∧ 2 ∉ x.s.pool.q.queue) ∧
    ∃ x outs, runOps D.step start (joining ++ source 0 7 6) = .ok (x, outs) ∧ 2 ∈ x.s.pool.q.queue := by
  refine ⟨⟨_, _, rfl, joining_allowed, fun w => ?_, by decide +kernel⟩, ⟨_, _, rfl, by decide +kernel⟩⟩
  by_cases h : 2 ≤ w
  · exact quiet_run (n := 2) joining (start_quiet 2) (by decide +kernel) rfl w h
  · rcases w with _ | _ | w
    · decide +kernel
    · decide +kernel
    · omega

/-- **C92 (recorded).** The one thing a filter may not do is to leave as the only one the announced frame
still waits for: filter 1 has had frame 5, filter 2 leaves without, and filter 1 never gets another although
it has its turn and the queue has them (see also C08). -/
theorem leaving_last_stalls :
    ∃ x outs, runOps D.step start (joining ++ [.leave 7 2] ++ source 0 7 6 ++ nothing 0 1) = .ok (x, outs) ∧
      x.g.dst 7 = [1] ∧ seen 7 1 outs = [5] ∧ (x.s.ring 7).getElements = 2 ∧ (x.s.rd 7).ready = false :=
  ⟨_, _, rfl, by decide +kernel⟩

end Lms.Rewire
