import Verif.QueueLife.Lemmas

/-! C09: queues are deleted exactly once, after both ends have let go. -/

namespace Lms.QueueLife

/-- **C09.** Every safe history of connections and disconnections, on any number of writers, readers
and queues, behaves like the specification, in which a queue is deleted when both ends have let go.
In particular it never deletes a queue twice nor uses a deleted one (both are undefined behaviour in
the model). -/
theorem queue_life_refines (ops : List Op) (hs : SafeRun Spec.step Safe Spec.init ops) :
    ∃ s', runOps St.step St.init ops = .ok (s', (runSpec Spec.step Spec.init ops).2) ∧
      s'.log = (runSpec Spec.step Spec.init ops).1.log := by
  obtain ⟨s', h, hr⟩ := runOps_refines_safe St.step Spec.step Safe Rel step_rel ops _ _ hs init_rel
  exact ⟨s', h, hr.log⟩

/-- **C09.** After any safe history: every queue ever created has been deleted at most once, and it has
been deleted exactly when no writer and no reader points to it any more. -/
theorem deleted_exactly_once (ops : List Op) (hs : SafeRun Spec.step Safe Spec.init ops) :
    ∃ s' outs, runOps St.step St.init ops = .ok (s', outs) ∧ s'.log.Nodup ∧
      (∀ q, q ∈ s'.log ↔ q < s'.next ∧ (∀ w, s'.w w ≠ some q) ∧ (∀ r, (s'.r r).queue ≠ some q)) ∧
      (∀ q, (∃ w, s'.w w = some q) ∨ (∃ r, (s'.r r).queue = some q) → ∃ c ids, s'.heap q = .live c ids) := by
  obtain ⟨s', h, hr⟩ := runOps_refines_safe St.step Spec.step Safe Rel step_rel ops _ _ hs init_rel
  generalize (runSpec Spec.step Spec.init ops).1 = t at hr
  have hW : ∀ q, t.wAt q = none ↔ ∀ w, s'.w w ≠ some q := by
    intro q
    constructor
    · intro hq w hw
      rw [hr.w] at hw
      rcases hx : t.w w with _ | ⟨q', f⟩
      · rw [hx] at hw; simp at hw
      · rw [hx] at hw; simp at hw; subst hw
        rw [hr.wAt w _ _ hx] at hq; simp at hq
    · intro hq
      cases hc : t.wAt q with
      | none => rfl
      | some i =>
        obtain ⟨f, hf⟩ := hr.wAt' i q hc
        exact absurd (by rw [hr.w, hf]; rfl) (hq i)
  have hR : ∀ q, t.rAt q = none ↔ ∀ r, (s'.r r).queue ≠ some q := by
    intro q
    constructor
    · intro hq w hw
      rw [hr.rq] at hw
      rcases hx : t.r w with _ | ⟨q', f⟩
      · rw [hx] at hw; simp at hw
      · rw [hx] at hw; simp at hw; subst hw
        rw [hr.rAt w _ _ hx] at hq; simp at hq
    · intro hq
      cases hc : t.rAt q with
      | none => rfl
      | some i =>
        obtain ⟨f, hf⟩ := hr.rAt' i q hc
        exact absurd (by rw [hr.rq, hf]; rfl) (hq i)
  refine ⟨s', _, h, by rw [hr.log]; exact hr.nodup, ?_, ?_⟩
  · intro q
    rw [hr.log, hr.next, ← hW, ← hR]
    constructor
    · intro hq
      have h1 : q < t.next := by
        by_cases hlt : q < t.next
        · exact hlt
        · exact absurd hq (hr.fresh q (by omega)).2.2.2
      refine ⟨h1, ?_, ?_⟩
      · cases hc : t.wAt q with
        | none => rfl
        | some i => exact absurd hq (hr.live q (Or.inl (by simp [hc]))).1
      · cases hc : t.rAt q with
        | none => rfl
        | some i => exact absurd hq (hr.live q (Or.inr (by simp [hc]))).1
    · rintro ⟨h1, h2, h3⟩
      exact (hr.dead q h1 h2 h3).2
  · intro q hq
    have : t.wAt q ≠ none ∨ t.rAt q ≠ none := by
      rcases hq with ⟨w, hw⟩ | ⟨r, hr'⟩
      · left; intro e; exact (hW q).1 e w hw
      · right; intro e; exact (hR q).1 e r hr'
    obtain ⟨_, ids, hh, _⟩ := hr.live q this
    exact ⟨_, ids, hh⟩

/-- **C09.** A second disconnection of the same end is refused and changes nothing: for every state,
right after a writer (a filter of a reader) has disconnected. -/
theorem second_disconnect_refused (s s' : St) (b : Bool) :
    (∀ w, s.step (.wdisc w) = .ok (s', b) → s'.step (.wdisc w) = .ok (s', false)) ∧
    (∀ r f, s.step (.leave r f) = .ok (s', b) → s'.step (.leave r f) = .ok (s', false)) := by
  constructor
  · intro w h
    simp only [St.step, St.writerDisconnect] at h ⊢
    rcases hw : s.w w with _ | q
    · rw [hw] at h; simp at h; rw [← h.1, hw]
    · rw [hw] at h
      simp only at h
      rcases hl : s.letGo q with s1 | _ | _
      · rw [hl] at h; simp at h; rw [← h.1]; simp
      · rw [hl] at h; simp at h
      · rw [hl] at h; simp at h
  · intro r f h
    have key : f ∉ (s'.r r).filters := by
      simp only [St.step, St.readerDisconnect] at h
      split at h
      · rename_i hf; simp at h; rw [← h.1]; exact hf
      · rename_i hf
        have h2 : ∀ s2, s.dropId r f = .ok s2 → f ∉ (s2.r r).filters := by
          intro s2 hs2
          unfold St.dropId at hs2
          rcases hq : (s.r r).queue with _ | q
          · rw [hq] at hs2; simp at hs2; rw [← hs2]; simp
          · rw [hq] at hs2
            simp only [St.removeId] at hs2
            split at hs2
            · simp at hs2; rw [← hs2]; simp
            · simp at hs2
        rcases hx : s.dropId r f with s2 | _ | _
        · rw [hx] at h
          simp only [Outcome.bind_ok] at h
          have h3 := h2 s2 hx
          split at h
          · simp at h; rw [← h.1]; exact h3
          · unfold St.disconnectQueue at h
            rcases hq : (s2.r r).queue with _ | q
            · rw [hq] at h; simp at h; rw [← h.1]; exact h3
            · rw [hq] at h
              simp only at h
              have h4 : ∀ s3, s2.letGo q = .ok s3 → s3.r = s2.r := by
                intro s3 hs3
                unfold St.letGo St.connected St.setConnected St.delete at hs3
                rcases hc : s2.heap q with _ | ⟨c, ids⟩ | _
                · rw [hc] at hs3; simp at hs3
                · rw [hc] at hs3
                  cases c <;> simp at hs3 <;> rw [← hs3]
                · rw [hc] at hs3; simp at hs3
              rcases hl : s2.letGo q with s3 | _ | _
              · rw [hl] at h; simp at h; rw [← h.1]; simp [h4 s3 hl]; exact h3
              · rw [hl] at h; simp at h
              · rw [hl] at h; simp at h
        · rw [hx] at h; simp at h
        · rw [hx] at h; simp at h
    simp only [St.step, St.readerDisconnect, key, not_false_eq_true, if_true]

/-! ### Examples -/

/-- Two filters share a reader; the writer leaves first, then the filters; the queue is deleted by
the last one.  A second connection is torn down from the other side. -/
def demo : List Op :=
  [.give 0 7, .connect 0 0, .share 0 8, .give 1 9, .connect 1 1, .rget 0 8, .wget 0, .wdisc 0, .rget 0 7,
   .leave 0 7, .wdisc 0, .leave 0 8, .leave 0 8, .drop 1, .wget 1, .wdisc 1]

example : (runOps St.step St.init demo).map (fun p => (p.2, p.1.log)) =
    .ok ([true, true, true, true, true, true, true, true, false, true, false, true, false, true, false, true],
      [0, 1]) := by decide

example : SafeRun Spec.step Safe Spec.init demo := by
  simp [SafeRun, demo, Safe, Spec.step, Spec.init, upd, Spec.dropReader, Spec.dropWriter]

/-! ### Findings -/

/-- **C09, recorded exception.** Connecting a writer to a reader that is already connected is accepted
and loses the writer's queue: it is marked connected though no reader has it, so nothing ever deletes
it.  (`BaseFilter::connect` never does this: it refuses a connected reader and builds a new one.) -/
theorem connecting_to_busy_reader_leaks :
    (runOps St.step St.init [.give 0 7, .connect 0 0, .give 1 7, .connect 1 0, .wdisc 1, .wdisc 1, .wdisc 0,
      .leave 0 7, .drop 0]).map (fun p => (p.2, p.1.log, p.1.heap 1)) =
      .ok ([true, true, true, true, true, false, true, true, false], [0], .live false [7]) := by decide

/-! ### Two threads

The writer's end and the reader's end disconnect at the same time: the reader's mutex does not cover
the writer (src/IOInterface.cpp:283-297 takes no lock), and `connected` is tested and changed in two
steps. -/

namespace Race

/-- Where a thread is in src/IOInterface.cpp:49-53 / 289-296: before the test, after it (with its
result), done. -/
inductive Pc where
  | start | tested (c : Bool) | done
  deriving DecidableEq, Repr

structure S where
  connected : Bool
  alive : Bool
  deletes : Nat
  w : Pc
  r : Pc
  deriving DecidableEq, Repr

/-- Both ends connected to a live queue. -/
def S.init : S := { connected := true, alive := true, deletes := 0, w := .start, r := .start }

/-- One step of one end: test the flag, or act on the result of the test. -/
def act (s : S) (pc : Pc) : Outcome (S × Pc) :=
  match pc with
  | .start => if s.alive then .ok (s, .tested s.connected) else .ub
  | .tested true => if s.alive then .ok ({ s with connected := false }, .done) else .ub
  | .tested false => if s.alive then .ok ({ s with alive := false, deletes := s.deletes + 1 }, .done) else .ub
  | .done => .ok (s, .done)

/-- `true`: the writer's thread runs; `false`: the reader's. -/
def S.step (s : S) (who : Bool) : Outcome (S × Unit) :=
  if who then (act s s.w).bind fun (s', pc) => .ok ({ s' with w := pc }, ())
  else (act s s.r).bind fun (s', pc) => .ok ({ s' with r := pc }, ())

/-- The states two racing disconnections can reach. -/
def Reach (s : S) : Prop :=
  (s.deletes = 0 ∧ s.alive = true ∧
    ((s.connected = true ∧ s.w ≠ .done ∧ s.r ≠ .done ∧ s.w ≠ .tested false ∧ s.r ≠ .tested false) ∨
     (s.connected = false ∧ (s.w = .done ∨ s.r = .done) ∧ (s.w ≠ .tested false ∨ s.r ≠ .tested false)))) ∨
  (s.deletes = 1 ∧ s.alive = false ∧ s.connected = false ∧ s.w = .done ∧ s.r = .done)

theorem reach_step (s : S) (h : Reach s) (who : Bool) : ∃ s', s.step who = .ok (s', ()) ∧ Reach s' := by
  rcases s with ⟨c, a, d, w, r⟩
  rcases w with _ | wc | _ <;> rcases r with _ | rc | _ <;> cases who <;> cases c <;> cases a <;>
    (try cases wc) <;> (try cases rc) <;>
    simp [Reach, S.step, act] at h ⊢ <;> simp_all

/-- **C09.** Whatever the interleaving of the two threads, the queue is deleted at most once and never
used after its deletion; it is deleted only when both are done. -/
theorem racing_disconnects_are_safe (sched : List Bool) :
    ∃ s outs, runOps S.step S.init sched = .ok (s, outs) ∧ s.deletes ≤ 1 ∧
      (s.alive = false ↔ s.deletes = 1) ∧ (s.deletes = 1 → s.w = .done ∧ s.r = .done) := by
  have key : ∀ (sched : List Bool) (s : S), Reach s → ∃ s' outs, runOps S.step s sched = .ok (s', outs) ∧ Reach s' := by
    intro sched
    induction sched with
    | nil => intro s h; exact ⟨s, [], rfl, h⟩
    | cons a l ih =>
      intro s h
      obtain ⟨s1, h1, h2⟩ := reach_step s h a
      obtain ⟨s2, o, h3, h4⟩ := ih s1 h2
      exact ⟨s2, () :: o, by simp [runOps, h1, h3], h4⟩
  obtain ⟨s, outs, h1, h2⟩ := key sched S.init (by simp [Reach, S.init])
  refine ⟨s, outs, h1, ?_⟩
  rcases h2 with ⟨h3, h4, _⟩ | ⟨h3, h4, _, h5, h6⟩
  · simp [h3, h4]
  · simp [h3, h4, h5, h6]

/-- **C09, recorded exception.** If both ends test the flag before either clears it, both are done and
the queue is never deleted. -/
theorem racing_disconnects_can_leak :
    (runOps S.step S.init [true, false, true, false]).map (·.1) =
      .ok { connected := false, alive := true, deletes := 0, w := .done, r := .done } := by decide

/-- Without overlap it is deleted. -/
example : (runOps S.step S.init [true, true, false, false]).map (·.1) =
    .ok { connected := false, alive := false, deletes := 1, w := .done, r := .done } := by decide

end Race

end Lms.QueueLife
