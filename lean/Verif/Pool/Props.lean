import Verif.Pool.Lemmas

/-! C10, C11, C12: the worker pool. -/

namespace Lms.Pool

/-! ### C10 -/

/-- **C10.** In every execution, two workers never process the same filter at once, the running flag of
a filter says exactly whether some worker processes it, and no id is queued twice. -/
theorem one_worker_per_filter (ident : Nat → Int) (time : Nat → Nat) (ops : List Op) (s : P)
    (outs : List Out) (h : runOps P.step (P.init ident time) ops = .ok (s, outs)) :
    (∀ w w' p, s.ph w = .run p → s.ph w' = .run p → w = w') ∧
    (∀ p, s.running p = true ↔ ∃ w, s.ph w = .run p) ∧
    (s.q.queue.map s.ident).Nodup := by
  have hi := run_inv ops _ _ _ (init_inv ident time) h
  exact ⟨hi.excl, hi.run, hi.nodup⟩

/-- **C10.** The job a worker takes is the first queued filter that is not being processed, its time has
come, and nobody processes it; if the worker waits, that filter's time has not come (or there is
none). -/
theorem pick_serves_in_order (s s' : P) (w now : Nat) (o : Out) (hl : s.lock = none)
    (hw : s.ph w = .idle) (h : s.step (.pick w now) = .ok (s', o)) :
    (∀ p, o = .picked p →
      ∃ before after, s.q.queue = before ++ p :: after ∧ (∀ x ∈ before, s.running x = true) ∧
        s.running p = false ∧ s.time p < now ∧ s'.ph w = .run p) ∧
    (o = .waits → ∀ before p after, s.q.queue = before ++ p :: after → (∀ x ∈ before, s.running x = true) →
      s.running p = true ∨ now ≤ s.time p) := by
  simp only [P.step, hl, hw, Option.isSome_none, Bool.false_eq_true, if_false] at h
  rcases hp : s.pick w now with ⟨s1, o1⟩ | _ | _
  · rw [hp] at h
    simp at h
    rcases pick_ok hp with ⟨rfl, h1, h2⟩ | ⟨p, a, l, rfl, h1, h2, _, h4, h5⟩
    · simp only at h
      refine ⟨fun p hp => by rw [← h.2] at hp; simp at hp, ?_⟩
      intro _ before p after hq hb
      by_cases hr : s.running p = true
      · exact Or.inl hr
      · right
        have : s.firstIdle s.q.queue = some p := by
          unfold P.firstIdle
          rw [hq, List.find?_append]
          have : before.find? (fun p => !s.running p) = none := by
            rw [List.find?_eq_none]; intro x hx; simp [hb x hx]
          rw [this]
          simp [hr]
        have := h2 p this
        simpa [P.ready] using this
    · simp only at h
      constructor
      · intro p' hp'
        rw [← h.2] at hp'
        injection hp' with hp'; subst hp'
        unfold P.firstIdle at h1
        rw [List.find?_eq_some_iff_append] at h1
        obtain ⟨h6, as, bs, h7, h8⟩ := h1
        refine ⟨as, bs, h7, ?_, by simpa using h6, by simpa [P.ready] using h2, ?_⟩
        · intro x hx; simpa using h8 x hx
        · rw [← h.1, h5]; simp
      · intro ho; rw [← h.2] at ho; simp at ho
  · rw [hp] at h; simp at h
  · rw [hp] at h; simp at h

/-! ### C11 -/

/-- **C11.** A pick always removes the front of the queue.  Hence the filter picked leaves the queue
exactly when it was at the front, that is when no filter being processed was queued before it;
otherwise the front filter's notification is deleted and the picked filter stays queued. -/
theorem pick_removes_front (s s' : P) (w now p : Nat) (h : s.step (.pick w now) = .ok (s', .picked p)) :
    ∃ a, s.q.queue = a :: s'.q.queue ∧ (a = p ∨ (s.running a = true ∧ p ∈ s'.q.queue)) := by
  simp only [P.step] at h
  split at h
  · simp at h
  · split at h
    · rcases hp : s.pick w now with ⟨s1, o1⟩ | _ | _
      · rw [hp] at h
        simp at h
        rcases pick_ok hp with ⟨rfl, h1, h2⟩ | ⟨p', a, l, rfl, h1, h2, _, h4, h5⟩
        · simp at h
        · have hpp : p' = p := by simpa using h.2
          subst hpp
          refine ⟨a, by rw [← h.1, h5]; exact h4, ?_⟩
          unfold P.firstIdle at h1
          rw [h4] at h1
          simp only [List.find?_cons] at h1
          split at h1
          · left; simpa using h1
          · rename_i hr
            right
            refine ⟨by simpa using hr, ?_⟩
            rw [← h.1, h5]
            exact List.mem_of_find?_eq_some h1
      · rw [hp] at h; simp at h
      · rw [hp] at h; simp at h
    · simp at h

/-- Number of jobs handed out in a run. -/
def picks : List Out → Nat
  | [] => 0
  | .picked _ :: os => picks os + 1
  | _ :: os => picks os

theorem pushBack_queue (ident : Nat → Int) (q : TQ) (x : Nat) :
    ∃ t, (q.pushBack ident x).queue = q.queue ++ t := by
  unfold TQ.pushBack
  split
  · exact ⟨[], by simp⟩
  · exact ⟨[x], by simp [TQ.reset]⟩

theorem pushAll_queue (ids : List Int) : ∀ (s s' : P), s.pushAll ids = .ok s' →
    ∃ t, s'.q.queue = s.q.queue ++ t := by
  induction ids with
  | nil => intro s s' h; simp [P.pushAll] at h; exact ⟨[], by rw [← h]; simp⟩
  | cons id ids ih =>
    intro s s' h
    unfold P.pushAll at h
    rcases hr : s.reg id with _ | p
    · rw [hr] at h; exact ih s s' h
    · rw [hr] at h
      simp only at h
      split at h
      · simp at h
      · obtain ⟨t, ht⟩ := ih _ s' h
        obtain ⟨t', ht'⟩ := pushBack_queue s.ident s.q p
        simp only at ht
        exact ⟨t' ++ t, by rw [ht, ht']; simp⟩

/-- A step that is not a pick only appends to the queue and never sets a running flag. -/
theorem step_other {s s' : P} {op : Op} {o : Out} (h : s.step op = .ok (s', o))
    (hn : ∀ p, o ≠ .picked p) : (∃ t, s'.q.queue = s.q.queue ++ t) ∧
      (∀ p, s.running p = false → s'.running p = false) := by
  cases op with
  | add p =>
    simp only [P.step] at h
    (repeat' split at h) <;> simp at h <;> rw [← h.1]
    · exact ⟨⟨[], by simp⟩, fun _ h => h⟩
    · exact ⟨⟨[], by simp⟩, fun _ h => h⟩
    · exact ⟨pushBack_queue _ _ _, fun _ h => h⟩
    · exact ⟨⟨[], by simp⟩, fun _ h => h⟩
  | remove id =>
    simp only [P.step] at h
    (repeat' split at h) <;> simp at h <;> rw [← h.1] <;> exact ⟨⟨[], by simp⟩, fun _ h => h⟩
  | reap p =>
    simp only [P.step] at h
    (repeat' split at h) <;> simp at h <;> rw [← h.1] <;> exact ⟨⟨[], by simp⟩, fun _ h => h⟩
  | pick w now =>
    simp only [P.step] at h
    split at h
    · simp at h; rw [← h.1]; exact ⟨⟨[], by simp⟩, fun _ h => h⟩
    · split at h
      · rcases hp : s.pick w now with ⟨s1, o1⟩ | _ | _
        · rw [hp] at h
          simp at h
          rcases pick_ok hp with ⟨rfl, h1, h2⟩ | ⟨p', a, l, rfl, h1, h2, _, h4, h5⟩
          · rw [← h.1, h1]; exact ⟨⟨[], by simp [TQ.reset]⟩, fun _ h => h⟩
          · exact absurd h.2.symm (hn p')
        · rw [hp] at h; simp at h
        · rw [hp] at h; simp at h
      · simp at h; rw [← h.1]; exact ⟨⟨[], by simp⟩, fun _ h => h⟩
  | done w t =>
    simp only [P.step] at h
    (repeat' split at h) <;> simp at h <;> rw [← h.1]
    · exact ⟨⟨[], by simp⟩, fun _ h => h⟩
    · refine ⟨⟨[], by simp⟩, ?_⟩
      intro p' hp'
      simp only [set]; split
      · rfl
      · exact hp'
    · exact ⟨⟨[], by simp⟩, fun _ h => h⟩
  | post w ids pending =>
    simp only [P.step] at h
    split at h
    · rename_i p hph
      split at h
      · simp at h
      · rcases hp : s.pushAll (if pending = true then ids ++ [s.ident p] else ids) with s1 | _ | _
        · rw [hp] at h
          simp at h
          rw [← h.1]
          obtain ⟨q, hq⟩ := pushAll_ok _ _ _ hp
          have hpq := pushAll_queue _ _ _ hp
          refine ⟨hpq, ?_⟩
          intro p' hp'
          simp only; rw [hq]; exact hp'
        · rw [hp] at h; simp at h
        · rw [hp] at h; simp at h
    · simp at h; rw [← h.1]; exact ⟨⟨[], by simp⟩, fun _ h => h⟩

/-- What a pick does to another filter waiting in the queue. -/
theorem step_pick_other {s s' : P} {op : Op} {x : Nat} (h : s.step op = .ok (s', .picked x)) :
    (∃ a, s.q.queue = a :: s'.q.queue ∧ (a = x ∨ s.running a = true)) ∧
      (∀ p, p ≠ x → s'.running p = s.running p) := by
  cases op with
  | pick w now =>
    refine ⟨?_, ?_⟩
    · obtain ⟨a, h1, h2⟩ := pick_removes_front s s' w now x h
      exact ⟨a, h1, h2.imp id (·.1)⟩
    · simp only [P.step] at h
      split at h
      · simp at h
      · split at h
        · rcases hp : s.pick w now with ⟨s1, o1⟩ | _ | _
          · rw [hp] at h
            simp at h
            rcases pick_ok hp with ⟨rfl, h1, h2⟩ | ⟨p', a, l, rfl, h1, h2, _, h4, h5⟩
            · simp at h
            · have hpp : p' = x := by simpa using h.2
              intro p hpx
              rw [← h.1, h5, hpp]
              exact set_ne _ _ hpx
          · rw [hp] at h; simp at h
          · rw [hp] at h; simp at h
        · simp at h
  | add p =>
    simp only [P.step] at h
    (repeat' split at h) <;> simp at h
  | remove id =>
    simp only [P.step] at h
    (repeat' split at h) <;> simp at h
  | reap p =>
    simp only [P.step] at h
    (repeat' split at h) <;> simp at h
  | done w t =>
    simp only [P.step] at h
    (repeat' split at h) <;> simp at h
  | post w ids pending =>
    simp only [P.step] at h
    split at h
    · rename_i p hph
      split at h
      · simp at h
      rcases hp : s.pushAll (if pending = true then ids ++ [s.ident p] else ids) with s1 | _ | _ <;>
        rw [hp] at h <;> simp at h
    · simp at h

/-- **C11.** No starvation in the queue: a filter that is queued behind `k` others and not being
processed is handed to a worker at the latest by the `k + 1`-st pick, whatever else happens. -/
theorem waiting_filter_is_picked_in_turn (ops : List Op) : ∀ (s s' : P) (outs : List Out) (k p : Nat),
    s.q.queue[k]? = some p → s.running p = false → runOps P.step s ops = .ok (s', outs) →
    k < picks outs → .picked p ∈ outs := by
  induction ops with
  | nil =>
    intro s s' outs k p _ _ h hk
    simp [runOps] at h
    rw [h.2] at hk; simp [picks] at hk
  | cons op ops ih =>
    intro s s' outs k p hq hr h hk
    obtain ⟨s1, o, os, h1, h2, rfl⟩ := runOps_cons_ok h
    by_cases hp : ∃ x, o = .picked x
    · obtain ⟨x, rfl⟩ := hp
      by_cases hx : x = p
      · rw [hx]; simp
      · obtain ⟨⟨a, h3, h4⟩, h5⟩ := step_pick_other h1
        have hr1 : s1.running p = false := by rw [h5 p (Ne.symm hx)]; exact hr
        rw [h3] at hq
        cases k with
        | zero =>
          simp at hq
          rcases h4 with h4 | h4
          · exact absurd (h4.symm.trans hq) hx
          · rw [hq, hr] at h4; simp at h4
        | succ k =>
          simp at hq
          exact List.mem_cons_of_mem _ (ih s1 s' os k p hq hr1 h2 (by simp [picks] at hk; omega))
    · have hp : ∀ x, o ≠ .picked x := fun x hx => hp ⟨x, hx⟩
      obtain ⟨⟨t, h3⟩, h4⟩ := step_other h1 hp
      refine List.mem_cons_of_mem _ (ih s1 s' os k p ?_ (h4 p hr) h2 ?_)
      · rw [h3]
        have hlt : k < s.q.queue.length := by
          rcases Nat.lt_or_ge k s.q.queue.length with h | h
          · exact h
          · rw [List.getElem?_eq_none_iff.2 h] at hq; simp at hq
        rw [List.getElem?_append_left hlt]; exact hq
      · have : picks (o :: os) = picks os := by
          cases o with
          | picked x => exact absurd rfl (hp x)
          | _ => rfl
        omega

/-- A filter with a notification that has not been lost: queued, or being processed (its worker will
ask `pendingJobs`), and nothing else queued under its id. -/
structure Awake (s : P) (p : Nat) : Prop where
  reg : s.reg (s.ident p) = some p
  uniq : ∀ x ∈ s.q.queue, s.ident x = s.ident p → x = p
  awake : p ∈ s.q.queue ∨ ∃ w, s.ph w = .run p ∨ s.ph w = .post p

theorem pushBack_awake {s : P} (hi : Inv s) {p x : Nat} {id : Int} (hx : s.reg id = some x)
    (hreg : s.reg (s.ident p) = some p) (hu : ∀ x ∈ s.q.queue, s.ident x = s.ident p → x = p) :
    (∀ y ∈ (s.q.pushBack s.ident x).queue, s.ident y = s.ident p → y = p) ∧
    (p ∈ s.q.queue → p ∈ (s.q.pushBack s.ident x).queue) ∧
    (x = p → p ∈ (s.q.pushBack s.ident x).queue) := by
  have hid := hi.reg id x hx
  unfold TQ.pushBack
  by_cases hm : s.ident x ∈ s.q.set
  · rw [if_pos hm]
    refine ⟨hu, fun h => h, ?_⟩
    rintro rfl
    have := hi.set.mem_iff.1 hm
    obtain ⟨y, hy, hy2⟩ := List.mem_map.1 this
    rw [← hu y hy hy2]; exact hy
  · rw [if_neg hm]
    refine ⟨?_, ?_, ?_⟩
    · intro y hy hy2
      simp only [TQ.reset, List.mem_append, List.mem_singleton] at hy
      rcases hy with hy | rfl
      · exact hu y hy hy2
      · rw [← hid, hy2, hreg] at hx; simpa using hx.symm
    · intro h; simp [TQ.reset, h]
    · rintro rfl; simp [TQ.reset]

theorem pushAll_awake (ids : List Int) : ∀ (s s' : P) (p : Nat), Inv s → s.reg (s.ident p) = some p →
    (∀ x ∈ s.q.queue, s.ident x = s.ident p → x = p) → s.pushAll ids = .ok s' →
    (∀ y ∈ s'.q.queue, s.ident y = s.ident p → y = p) ∧ (p ∈ s.q.queue → p ∈ s'.q.queue) ∧
    (s.ident p ∈ ids → p ∈ s'.q.queue) := by
  induction ids with
  | nil =>
    intro s s' p _ _ hu h
    simp [P.pushAll] at h
    rw [← h]; exact ⟨hu, fun h => h, by simp⟩
  | cons id ids ih =>
    intro s s' p hi hreg hu h
    unfold P.pushAll at h
    rcases hr : s.reg id with _ | x
    · rw [hr] at h
      obtain ⟨h1, h2, h3⟩ := ih s s' p hi hreg hu h
      refine ⟨h1, h2, ?_⟩
      intro hm
      rcases List.mem_cons.1 hm with hm | hm
      · rw [hm, hr] at hreg; simp at hreg
      · exact h3 hm
    · rw [hr] at h
      simp only at h
      split at h
      · simp at h
      · obtain ⟨g1, g2, g3⟩ := pushBack_awake hi hr hreg hu
        obtain ⟨h1, h2, h3⟩ := ih _ s' p (pushBack_inv hi x) hreg g1 h
        refine ⟨h1, fun hq => h2 (g2 hq), ?_⟩
        intro hm
        rcases List.mem_cons.1 hm with hm | hm
        · rw [hm, hr] at hreg
          exact h2 (g3 (by simpa using hreg))
        · exact h3 hm

/-- The runs considered below: the filter is not removed, and whenever a worker has finished
processing it there is still something to process. -/
def stillPending (p : Nat) (s : P) : Op → Prop
  | .remove id => id ≠ s.ident p
  | .post w _ pending => s.ph w = .post p → pending = true
  | _ => True

/-- `stillPending` along a run. -/
def StillPending (p : Nat) : P → List Op → Prop
  | _, [] => True
  | s, op :: ops => stillPending p s op ∧ ∀ s1 o, s.step op = .ok (s1, o) → StillPending p s1 ops

theorem awake_step {s s' : P} {op : Op} {o : Out} {p : Nat} (hi : Inv s) (ha : Awake s p)
    (hsp : stillPending p s op) (h : s.step op = .ok (s', o)) : Awake s' p := by
  obtain ⟨h1, h2, h3⟩ := ha
  cases op with
  | add x =>
    simp only [P.step] at h
    (repeat' split at h) <;> simp at h <;> rw [← h.1]
    · exact ⟨h1, h2, h3⟩
    · exact ⟨h1, h2, h3⟩
    · rename_i hnone _
      have hne : s.ident p ≠ s.ident x := by intro e; rw [← e, h1] at hnone; simp at hnone
      refine ⟨by simp only [set_ne _ _ hne]; exact h1, ?_, ?_⟩
      · intro y hy hy2
        simp only [TQ.pushBack] at hy
        split at hy
        · exact h2 y hy hy2
        · simp only [TQ.reset, List.mem_append, List.mem_singleton] at hy
          rcases hy with hy | rfl
          · exact h2 y hy hy2
          · exact absurd hy2.symm hne
      · rcases h3 with h3 | h3
        · left
          obtain ⟨t, ht⟩ := pushBack_queue s.ident s.q x
          simp only; rw [ht]; simp [h3]
        · exact Or.inr h3
    · exact ⟨h1, h2, h3⟩
  | remove id =>
    have hid : s.ident p ≠ id := Ne.symm hsp
    simp only [P.step] at h
    (repeat' split at h) <;> simp at h <;> rw [← h.1]
    · exact ⟨h1, h2, h3⟩
    · exact ⟨h1, h2, h3⟩
    · exact ⟨by simp only [set_ne _ _ hid]; exact h1, h2, h3⟩
  | reap x =>
    simp only [P.step] at h
    (repeat' split at h) <;> simp at h <;> rw [← h.1] <;> exact ⟨h1, h2, h3⟩
  | pick w now =>
    simp only [P.step] at h
    split at h
    · simp at h; rw [← h.1]; exact ⟨h1, h2, h3⟩
    · split at h
      · rename_i hph
        rcases hp : s.pick w now with ⟨s1, o1⟩ | _ | _
        · rw [hp] at h
          simp at h
          rw [← h.1]
          rcases pick_ok hp with ⟨rfl, rfl, _⟩ | ⟨x, a, l, rfl, g1, _, _, g4, rfl⟩
          · exact ⟨h1, h2, h3⟩
          · refine ⟨h1, fun y hy => h2 y (by rw [g4]; exact List.mem_cons_of_mem _ hy), ?_⟩
            have hkeep : (∃ w, s.ph w = .run p ∨ s.ph w = .post p) →
                ∃ w', set s.ph w (.run x) w' = .run p ∨ set s.ph w (.run x) w' = .post p := by
              rintro ⟨w', hw'⟩
              have : w' ≠ w := by intro e; subst e; rw [hph] at hw'; simp at hw'
              exact ⟨w', by rw [set_ne _ _ this]; exact hw'⟩
            rcases h3 with h3 | h3
            · rw [g4] at h3
              rcases List.mem_cons.1 h3 with h3 | h3
              · subst h3
                right
                cases hr : s.running p with
                | false =>
                  have : s.firstIdle s.q.queue = some p := by
                    rw [g4]; simp [P.firstIdle, hr]
                  rw [g1] at this
                  have : x = p := by simpa using this
                  exact ⟨w, by simp [this]⟩
                | true =>
                  obtain ⟨w', hw'⟩ := (hi.run p).1 hr
                  exact hkeep ⟨w', Or.inl hw'⟩
              · exact Or.inl h3
            · exact Or.inr (hkeep h3)
        · rw [hp] at h; simp at h
        · rw [hp] at h; simp at h
      · simp at h; rw [← h.1]; exact ⟨h1, h2, h3⟩
  | done w t =>
    simp only [P.step] at h
    split at h
    · simp at h; rw [← h.1]; exact ⟨h1, h2, h3⟩
    · split at h
      · rename_i x hph
        split at h
        · simp at h
        · simp at h
          rw [← h.1]
          refine ⟨h1, h2, ?_⟩
          rcases h3 with h3 | ⟨w', hw'⟩
          · exact Or.inl h3
          · right
            by_cases e : w' = w
            · subst e
              rw [hph] at hw'
              refine ⟨w', Or.inr ?_⟩
              rcases hw' with hw' | hw'
              · injection hw' with hw'; simp [hw']
              · simp at hw'
            · exact ⟨w', by simp only [set_ne _ _ e]; exact hw'⟩
      · simp at h; rw [← h.1]; exact ⟨h1, h2, h3⟩
  | post w ids pending =>
    simp only [P.step] at h
    split at h
    · rename_i x hph
      split at h
      · simp at h
      · rcases hp : s.pushAll (if pending = true then ids ++ [s.ident x] else ids) with s1 | _ | _
        · rw [hp] at h
          simp at h
          rw [← h.1]
          obtain ⟨q, hq⟩ := pushAll_ok _ _ _ hp
          obtain ⟨g1, g2, g3⟩ := pushAll_awake _ _ _ p hi h1 h2 hp
          subst hq
          refine ⟨h1, g1, ?_⟩
          rcases h3 with h3 | ⟨w', hw'⟩
          · exact Or.inl (g2 h3)
          · by_cases e : w' = w
            · subst e
              left
              rw [hph] at hw'
              have hxp : x = p := by
                rcases hw' with hw' | hw'
                · simp at hw'
                · injection hw'
              subst hxp
              apply g3
              rw [hsp hph]; simp
            · exact Or.inr ⟨w', by simp only [set_ne _ _ e]; exact hw'⟩
        · rw [hp] at h; simp at h
        · rw [hp] at h; simp at h
    · simp at h; rw [← h.1]; exact ⟨h1, h2, h3⟩

theorem awake_run (p : Nat) (ops : List Op) : ∀ (s s' : P) (outs : List Out), Inv s → Awake s p →
    StillPending p s ops → runOps P.step s ops = .ok (s', outs) → Inv s' ∧ Awake s' p := by
  induction ops with
  | nil => intro s s' outs hi ha _ h; simp [runOps] at h; rw [← h.1]; exact ⟨hi, ha⟩
  | cons op ops ih =>
    intro s s' outs hi ha hsp h
    obtain ⟨s1, o, os, h1, h2, rfl⟩ := runOps_cons_ok h
    exact ih s1 s' os (step_inv hi h1) (awake_step hi ha hsp.1 h1) (hsp.2 s1 o h1) h2

/-- **C11.** A lost notification is made up for as long as there is work: if a registered filter is
queued (and no other filter under the same id), then after any further execution in which it is not
removed and `pendingJobs` answers yes whenever a worker is done with it, it is still queued or in the
hands of a worker.  With `waiting_filter_is_picked_in_turn` it is therefore processed again. -/
theorem pending_filter_stays_scheduled (ident : Nat → Int) (time : Nat → Nat) (ops ops' : List Op)
    (s s' : P) (outs outs' : List Out) (p : Nat)
    (h : runOps P.step (P.init ident time) ops = .ok (s, outs))
    (hq : p ∈ s.q.queue) (hreg : s.reg (s.ident p) = some p)
    (hp : StillPending p s ops') (h' : runOps P.step s ops' = .ok (s', outs')) :
    p ∈ s'.q.queue ∨ ∃ w, s'.ph w = .run p ∨ s'.ph w = .post p := by
  have hi := run_inv ops _ _ _ (init_inv ident time) h
  have hu : ∀ x ∈ s.q.queue, s.ident x = s.ident p → x = p := by
    intro x hx he
    obtain ⟨i, hi1, hi2⟩ := List.getElem_of_mem hx
    obtain ⟨j, hj1, hj2⟩ := List.getElem_of_mem hq
    have hnd := hi.nodup
    have : i = j := by
      have h1 : (s.q.queue.map s.ident)[i]'(by simpa using hi1) = (s.q.queue.map s.ident)[j]'(by simpa using hj1) := by
        simp [hi2, hj2, he]
      exact (List.getElem_inj hnd).1 h1
    subst this
    rw [← hi2, ← hj2]
  exact (awake_run p ops' s s' outs' hi ⟨hreg, hu, Or.inl hq⟩ hp h').2.awake

/-- Filters 0, 1, … with their own number as id, ready since time 0. -/
def pool : P := P.init (fun p => p) (fun _ => 0)

/-- **C11, counterexample.** Filter 0 is running when it is notified; filter 1 is queued behind it; a
worker that takes filter 1 deletes the notification of filter 0 and leaves filter 1 queued.  When
filter 0 is done (nothing pending), it is not run again, whereas filter 1 is, although notified
once. -/
theorem notification_can_be_lost :
    (runOps P.step pool [.add 0, .add 1, .add 2, .pick 0 5, .pick 1 5, .pick 2 5,
      .done 1 6, .post 1 [0, 1] false,         -- filter 1 notifies 0 (running) and itself
      .pick 1 9,                               -- takes 1, deletes the notification of 0
      .done 0 10, .post 0 [] false,            -- 0 is done
      .done 1 11, .post 1 [] false,            -- 1 is done
      .pick 0 20, .done 0 21, .post 0 [] false, .pick 0 30]).map (·.2) =
      .ok [.bool true, .bool true, .bool true, .picked 0, .picked 1, .picked 2, .unit, .unit, .picked 1,
        .unit, .unit, .unit, .unit, .picked 1, .unit, .unit, .waits] := by decide

/-! ### C12 -/

theorem step_ident {s s' : P} {op : Op} {o : Out} (h : s.step op = .ok (s', o)) : s'.ident = s.ident := by
  cases op with
  | pick w now =>
    simp only [P.step] at h
    split at h
    · simp at h; rw [h.1]
    · split at h
      · rcases hp : s.pick w now with ⟨s1, o1⟩ | _ | _
        · rw [hp] at h
          simp at h
          rcases pick_ok hp with ⟨rfl, rfl, _⟩ | ⟨x, a, l, rfl, g1, _, _, g4, rfl⟩ <;> rw [← h.1]
        · rw [hp] at h; simp at h
        · rw [hp] at h; simp at h
      · simp at h; rw [h.1]
  | post w ids pending =>
    simp only [P.step] at h
    split at h
    · rename_i x hph
      split at h
      · simp at h
      · rcases hp : s.pushAll (if pending = true then ids ++ [s.ident x] else ids) with s1 | _ | _
        · rw [hp] at h
          simp at h
          obtain ⟨q, rfl⟩ := pushAll_ok _ _ _ hp
          rw [← h.1]
        · rw [hp] at h; simp at h
        · rw [hp] at h; simp at h
    · simp at h; rw [h.1]
  | add x =>
    simp only [P.step] at h
    (repeat' split at h) <;> simp at h <;> rw [← h.1]
  | remove x =>
    simp only [P.step] at h
    (repeat' split at h) <;> simp at h <;> rw [← h.1]
  | reap x =>
    simp only [P.step] at h
    (repeat' split at h) <;> simp at h <;> rw [← h.1]
  | done w t =>
    simp only [P.step] at h
    (repeat' split at h) <;> simp at h <;> rw [← h.1]

theorem unregistered_never_runs (ops : List Op) : ∀ (s s' : P) (outs : List Out) (p : Nat), Inv s →
    s.reg (s.ident p) ≠ some p → p ∉ s.q.queue → .add p ∉ ops →
    runOps P.step s ops = .ok (s', outs) → .picked p ∉ outs := by
  have pushAll_mem : ∀ (ids : List Int) (s s' : P) (p : Nat), Inv s → s.reg (s.ident p) ≠ some p →
      p ∉ s.q.queue → s.pushAll ids = .ok s' → p ∉ s'.q.queue := by
    intro ids
    induction ids with
    | nil => intro s s' p _ _ hq h; simp [P.pushAll] at h; rw [← h]; exact hq
    | cons id ids ih =>
      intro s s' p hi hr hq h
      unfold P.pushAll at h
      rcases hx : s.reg id with _ | x
      · rw [hx] at h; exact ih s s' p hi hr hq h
      · rw [hx] at h
        simp only at h
        split at h
        · simp at h
        · refine ih _ s' p (pushBack_inv hi x) hr ?_ h
          simp only [TQ.pushBack]
          split
          · exact hq
          · simp only [TQ.reset, List.mem_append, List.mem_singleton, not_or]
            refine ⟨hq, ?_⟩
            intro e; subst e
            have := hi.reg id p hx
            rw [← this] at hx
            exact hr hx
  have key : ∀ (s s' : P) (op : Op) (o : Out) (p : Nat), Inv s → s.reg (s.ident p) ≠ some p →
      p ∉ s.q.queue → op ≠ .add p → s.step op = .ok (s', o) →
      s'.reg (s'.ident p) ≠ some p ∧ p ∉ s'.q.queue ∧ o ≠ .picked p := by
    intro s s' op o p hi hr hq hne h
    cases op with
    | add x =>
      have hxp : x ≠ p := by intro e; exact hne (by rw [e])
      simp only [P.step] at h
      (repeat' split at h) <;> simp at h <;> rw [← h.1, ← h.2]
      · exact ⟨hr, hq, by simp⟩
      · exact ⟨hr, hq, by simp⟩
      · refine ⟨?_, ?_, by simp⟩
        · simp only [set]; split
          · intro e; injection e with e; exact hxp e
          · exact hr
        · simp only [TQ.pushBack]
          split
          · exact hq
          · simp only [TQ.reset, List.mem_append, List.mem_singleton, not_or]
            exact ⟨hq, Ne.symm hxp⟩
      · exact ⟨hr, hq, by simp⟩
    | remove id =>
      simp only [P.step] at h
      (repeat' split at h) <;> simp at h <;> rw [← h.1, ← h.2]
      · exact ⟨hr, hq, by simp⟩
      · exact ⟨hr, hq, by simp⟩
      · refine ⟨?_, hq, by simp⟩
        simp only [set]; split
        · simp
        · exact hr
    | reap x =>
      simp only [P.step] at h
      (repeat' split at h) <;> simp at h <;> rw [← h.1, ← h.2] <;> exact ⟨hr, hq, by simp⟩
    | pick w now =>
      simp only [P.step] at h
      split at h
      · simp at h; rw [← h.1, ← h.2]; exact ⟨hr, hq, by simp⟩
      · split at h
        · rcases hp : s.pick w now with ⟨s1, o1⟩ | _ | _
          · rw [hp] at h
            simp at h
            rw [← h.1, ← h.2]
            rcases pick_ok hp with ⟨rfl, rfl, _⟩ | ⟨x, a, l, rfl, g1, _, _, g4, rfl⟩
            · exact ⟨hr, hq, by simp⟩
            · refine ⟨hr, ?_, ?_⟩
              · intro hm; exact hq (by rw [g4]; exact List.mem_cons_of_mem _ hm)
              · intro e
                have e : x = p := by simpa using e
                subst e
                exact hq (firstIdle_some g1).1
          · rw [hp] at h; simp at h
          · rw [hp] at h; simp at h
        · simp at h; rw [← h.1, ← h.2]; exact ⟨hr, hq, by simp⟩
    | done w t =>
      simp only [P.step] at h
      (repeat' split at h) <;> simp at h <;> rw [← h.1, ← h.2] <;> exact ⟨hr, hq, by simp⟩
    | post w ids pending =>
      simp only [P.step] at h
      split at h
      · rename_i x hph
        split at h
        · simp at h
        · rcases hp : s.pushAll (if pending = true then ids ++ [s.ident x] else ids) with s1 | _ | _
          · rw [hp] at h
            simp at h
            rw [← h.1, ← h.2]
            have := pushAll_mem _ _ _ p hi hr hq hp
            obtain ⟨q, rfl⟩ := pushAll_ok _ _ _ hp
            exact ⟨hr, this, by simp⟩
          · rw [hp] at h; simp at h
          · rw [hp] at h; simp at h
      · simp at h; rw [← h.1, ← h.2]; exact ⟨hr, hq, by simp⟩
  induction ops with
  | nil => intro s s' outs p _ _ _ _ h; simp [runOps] at h; rw [h.2]; simp
  | cons op ops ih =>
    intro s s' outs p hi hr hq hne h
    obtain ⟨s1, o, os, h1, h2, rfl⟩ := runOps_cons_ok h
    obtain ⟨g1, g2, g3⟩ := key s s1 op o p hi hr hq (by intro e; exact hne (by rw [e]; simp)) h1
    intro hm
    rcases List.mem_cons.1 hm with hm | hm
    · exact g3 hm.symm
    · exact ih s1 s' os p (step_inv hi h1) g1 g2 (fun e => hne (List.mem_cons_of_mem _ e)) h2 hm

/-- **C12.** After any execution, a filter that has been removed and is not queued is never handed to a
worker again, whatever happens (unless it is added again). -/
theorem removed_filter_never_runs (ident : Nat → Int) (time : Nat → Nat) (ops ops' : List Op)
    (s s' : P) (outs outs' : List Out) (p : Nat)
    (h : runOps P.step (P.init ident time) (ops ++ [.remove (ident p)]) = .ok (s, outs))
    (hl : s.lock = none) (hq : p ∉ s.q.queue) (hadd : .add p ∉ ops')
    (h' : runOps P.step s ops' = .ok (s', outs')) : .picked p ∉ outs' := by
  have hi := run_inv _ _ _ _ (init_inv ident time) h
  refine unregistered_never_runs ops' s s' outs' p hi ?_ hq hadd h'
  rw [runOps_append] at h
  rcases h1 : runOps P.step (P.init ident time) ops with ⟨s1, o1⟩ | _ | _
  · rw [h1] at h
    simp only [Outcome.bind_ok] at h
    rcases h2 : runOps P.step s1 [.remove (ident p)] with ⟨s2, o2⟩ | _ | _
    · rw [h2] at h
      simp at h
      obtain ⟨s3, o, os, h3, h4, _⟩ := runOps_cons_ok h2
      simp [runOps] at h4
      have hid : ∀ (ops : List Op) (s s' : P) (outs : List Out), runOps P.step s ops = .ok (s', outs) →
          s'.ident = s.ident := by
        intro ops
        induction ops with
        | nil => intro s s' outs h; simp [runOps] at h; rw [h.1]
        | cons op ops ih =>
          intro s s' outs h
          obtain ⟨s1, o, os, h1, h2, _⟩ := runOps_cons_ok h
          rw [ih s1 s' os h2]
          exact step_ident h1
      rw [← h.1, hid _ _ _ _ h2, hid _ _ _ _ h1]
      rw [← h4.1]
      simp only [P.step] at h3
      split at h3
      · rename_i hlk
        simp at h3
        rw [← h.1, ← h4.1, ← h3.1] at hl
        rw [hl] at hlk; simp at hlk
      · split at h3
        · rename_i hn
          simp at h3
          rw [← h3.1]
          simp only [P.init]; rw [hn]; simp
        · simp at h3
          rw [← h3.1]
          simp [P.init]
    · rw [h2] at h; simp at h
    · rw [h2] at h; simp at h
  · rw [h1] at h; simp at h
  · rw [h1] at h; simp at h

/-- What the callers must respect: a task is added while it exists, removed when no job of it is
queued, and destroyed when no worker is between clearing its running flag and the end of its critical
section. -/
def safe (s : P) : Op → Prop
  | .add p => s.freed p = false
  | .remove id => ∀ p, s.reg id = some p → p ∉ s.q.queue
  | .reap p => ∀ w, s.ph w ≠ .post p
  | _ => True

/-- `safe` along a run. -/
def Safe : P → List Op → Prop
  | _, [] => True
  | s, op :: ops => safe s op ∧ ∀ s1 o, s.step op = .ok (s1, o) → Safe s1 ops

structure Live (s : P) : Prop where
  queue : ∀ p ∈ s.q.queue, s.reg (s.ident p) = some p
  reg : ∀ id p, s.reg id = some p → s.freed p = false
  ph : ∀ w p, s.ph w = .run p ∨ s.ph w = .post p → s.freed p = false

theorem Live.notFreed {s : P} (h : Live s) : s.q.queue.any s.freed = false := by
  rw [List.any_eq_false]
  intro p hp
  simp [h.reg _ p (h.queue p hp)]

theorem pushBack_live {s : P} (hi : Inv s) (h : Live s) {id : Int} {x : Nat} (hx : s.reg id = some x) :
    Live { s with q := s.q.pushBack s.ident x } := by
  refine ⟨?_, h.reg, h.ph⟩
  intro p hp
  simp only [TQ.pushBack] at hp
  split at hp
  · exact h.queue p hp
  · simp only [TQ.reset, List.mem_append, List.mem_singleton] at hp
    rcases hp with hp | rfl
    · exact h.queue p hp
    · simp only; rw [hi.reg id p hx]; exact hx

theorem pushAll_live (ids : List Int) : ∀ (s : P), Inv s → Live s → ∃ s', s.pushAll ids = .ok s' ∧ Live s' := by
  induction ids with
  | nil => intro s _ h; exact ⟨s, rfl, h⟩
  | cons id ids ih =>
    intro s hi h
    unfold P.pushAll
    rcases hx : s.reg id with _ | x
    · exact ih s hi h
    · simp only
      have : (x :: s.q.queue).any s.freed = false := by
        simp [h.reg id x hx, h.notFreed]
      rw [this]
      simp only [Bool.false_eq_true, if_false]
      exact ih _ (pushBack_inv hi x) (pushBack_live hi h hx)

theorem live_step {s : P} {op : Op} (hi : Inv s) (h : Live s) (hs : safe s op) :
    ∃ s' o, s.step op = .ok (s', o) ∧ Live s' := by
  cases op with
  | add p =>
    have hf : s.freed p = false := hs
    simp only [P.step, hf, h.notFreed, Bool.false_eq_true, if_false]
    split
    · exact ⟨_, _, rfl, h⟩
    split
    · exact ⟨_, _, rfl, h⟩
    split
    · refine ⟨_, _, rfl, ?_, ?_, h.ph⟩
      · rename_i hnone
        intro x hx
        simp only [TQ.pushBack] at hx
        have hold : x ∈ s.q.queue → (set s.reg (s.ident p) (some p)) (s.ident x) = some x := by
          intro hx
          have := h.queue x hx
          have hne : s.ident x ≠ s.ident p := by intro e; rw [e, hnone] at this; simp at this
          rw [set_ne _ _ hne]; exact this
        split at hx
        · exact hold hx
        · simp only [TQ.reset, List.mem_append, List.mem_singleton] at hx
          rcases hx with hx | rfl
          · exact hold hx
          · simp
      · intro id x hx
        simp only at hx
        by_cases he : id = s.ident p
        · subst he; simp at hx; rw [← hx]; exact hf
        · rw [set_ne _ _ he] at hx; exact h.reg id x hx
    · exact ⟨_, _, rfl, h⟩
  | remove id =>
    simp only [P.step]
    split
    · exact ⟨_, _, rfl, h⟩
    split
    · exact ⟨_, _, rfl, h⟩
    · refine ⟨_, _, rfl, ?_, ?_, h.ph⟩
      · intro x hx
        have h1 := h.queue x hx
        have hne : s.ident x ≠ id := by
          intro e; rw [e] at h1; exact hs x h1 hx
        simp only [set_ne _ _ hne]; exact h1
      · intro id' x hx
        simp only at hx
        by_cases he : id' = id
        · subst he; simp at hx
        · rw [set_ne _ _ he] at hx; exact h.reg id' x hx
  | reap p =>
    simp only [P.step]
    split
    · exact ⟨_, _, rfl, h⟩
    · rename_i hn
      simp only [not_or] at hn
      have hr : s.running p = false := by simpa using hn.2.2
      refine ⟨_, _, rfl, h.queue, ?_, ?_⟩
      · intro id x hx
        have hne : x ≠ p := by
          intro e; subst e
          have := hi.reg id x hx
          rw [← this] at hx
          exact hn.2.1 hx
        simp only [set_ne _ _ hne]
        exact h.reg id x hx
      · intro w x hx
        have hne : x ≠ p := by
          intro e; subst e
          rcases hx with hx | hx
          · have := (hi.run x).2 ⟨w, hx⟩
            rw [hr] at this; simp at this
          · exact hs w hx
        simp only [set_ne _ _ hne]
        exact h.ph w x hx
  | pick w now =>
    simp only [P.step]
    split
    · exact ⟨_, _, rfl, h⟩
    split
    · rename_i hph
      obtain ⟨q, o, hsc⟩ := scan_no_ub s now (s.q.queue.length + 1) s.q.reset
        (by simpa [TQ.reset] using h.notFreed) (by simp [TQ.reset]) (by simp [TQ.reset])
      have hpk : ∃ s1 o1, s.pick w now = .ok (s1, o1) := by
        unfold P.pick; rw [hsc]; simp only [Outcome.bind_ok]
        cases o <;> exact ⟨_, _, rfl⟩
      obtain ⟨s1, o1, hp⟩ := hpk
      rw [hp]
      refine ⟨s1, _, rfl, ?_⟩
      rcases pick_ok hp with ⟨rfl, rfl, _⟩ | ⟨x, a, l, rfl, g1, _, g3, g4, rfl⟩
      · exact ⟨h.queue, h.reg, h.ph⟩
      · refine ⟨fun y hy => h.queue y (by rw [g4]; exact List.mem_cons_of_mem _ hy), h.reg, ?_⟩
        intro w' p' hp'
        simp only at hp'
        by_cases e : w' = w
        · subst e; simp at hp'; rw [← hp']; exact g3
        · rw [set_ne _ _ e] at hp'; exact h.ph w' p' hp'
    · exact ⟨_, _, rfl, h⟩
  | done w t =>
    simp only [P.step]
    split
    · exact ⟨_, _, rfl, h⟩
    split
    · rename_i p hph
      have hf := h.ph w p (Or.inl hph)
      simp only [hf, Bool.false_eq_true, if_false]
      refine ⟨_, _, rfl, h.queue, h.reg, ?_⟩
      intro w' p' hp'
      simp only at hp'
      by_cases e : w' = w
      · subst e; simp at hp'; rw [← hp']; exact hf
      · rw [set_ne _ _ e] at hp'; exact h.ph w' p' hp'
    · exact ⟨_, _, rfl, h⟩
  | post w ids pending =>
    simp only [P.step]
    split
    · rename_i p hph
      have hf := h.ph w p (Or.inr hph)
      simp only [hf, Bool.false_eq_true, if_false]
      obtain ⟨s1, h1, h2⟩ := pushAll_live (if pending = true then ids ++ [s.ident p] else ids) s hi h
      rw [h1]
      refine ⟨_, _, rfl, h2.queue, h2.reg, ?_⟩
      intro w' p' hp'
      simp only at hp'
      by_cases e : w' = w
      · subst e; simp at hp'
      · rw [set_ne _ _ e] at hp'; exact h2.ph w' p' hp'
    · exact ⟨_, _, rfl, h⟩

/-- **C12.** If tasks are removed only when no job of them is queued, and destroyed only when no worker
is still busy with their completion, no execution of the pool ever touches a destroyed task; and every
filter queued is registered. -/
theorem removed_filter_never_touched (ident : Nat → Int) (time : Nat → Nat) (ops : List Op)
    (hs : Safe (P.init ident time) ops) :
    ∃ s outs, runOps P.step (P.init ident time) ops = .ok (s, outs) ∧
      (∀ p ∈ s.q.queue, s.reg (s.ident p) = some p) ∧
      (∀ w p, s.ph w = .run p → s.freed p = false) := by
  have key : ∀ (ops : List Op) (s : P), Inv s → Live s → Safe s ops →
      ∃ s' outs, runOps P.step s ops = .ok (s', outs) ∧ Live s' := by
    intro ops
    induction ops with
    | nil => intro s _ h _; exact ⟨s, [], rfl, h⟩
    | cons op ops ih =>
      intro s hi h hs
      obtain ⟨s1, o, h1, h2⟩ := live_step hi h hs.1
      obtain ⟨s2, os, h3, h4⟩ := ih s1 (step_inv hi h1) h2 (hs.2 s1 o h1)
      exact ⟨s2, o :: os, by simp [runOps, h1, h3], h4⟩
  obtain ⟨s, outs, h1, h2⟩ := key ops _ (init_inv ident time)
    ⟨by simp [P.init, TQ.init], by simp [P.init], by simp [P.init]⟩ hs
  exact ⟨s, outs, h1, h2.queue, fun w p h => h2.ph w p (Or.inl h)⟩

/-- **C12, counterexample.** A task removed while a job of it is queued: its destruction is followed by
a worker looking at it. -/
theorem removal_with_pending_job_is_ub :
    runOps P.step pool [.add 0, .remove 0, .reap 0] ≠ .ub ∧
    runOps P.step pool [.add 0, .remove 0, .reap 0, .pick 0 5] = .ub := by
  constructor
  · intro h
    have : (runOps P.step pool [.add 0, .remove 0, .reap 0]).map (·.2) = .ok [.bool true, .bool true, .unit] := by
      decide
    rw [h] at this; simp at this
  · rfl

/-- **C12, counterexample.** Even with nothing queued: `removeTask` can return between the worker's
`unsetRunning` and `pendingJobs`, and the worker then uses the destroyed task. -/
theorem removal_races_with_completion :
    (runOps P.step pool [.add 0, .pick 0 5, .remove 0, .done 0 9, .reap 0]).map (·.2) =
      .ok [.bool true, .picked 0, .bool true, .unit, .unit] ∧
    runOps P.step pool [.add 0, .pick 0 5, .remove 0, .done 0 9, .reap 0, .post 0 [] false] = .ub := by
  constructor
  · decide
  · rfl

/-- **C12, counterexample.** While a job of a removed task is queued, a new task with the same id is
accepted but not scheduled: the worker gets the old one (here not yet destroyed), the new one never
runs. -/
theorem reused_id_runs_the_removed_task :
    (runOps P.step (P.init (fun _ => 5) (fun _ => 0)) [.add 0, .remove 5, .add 1, .pick 0 5, .done 0 6,
      .post 0 [] false, .pick 0 50]).map (·.2) =
      .ok [.bool true, .bool true, .bool true, .picked 0, .unit, .unit, .waits] := by decide

/-! ### Examples -/

/-- Two workers, three filters; filter 2 waits for its time. -/
example : (runOps P.step (P.init (fun p => p) (fun p => if p = 2 then 100 else 0))
    [.add 0, .add 1, .add 2, .add 1, .pick 0 5, .pick 1 6, .pick 2 7, .done 0 8, .post 0 [1, 2, 9] true,
     .pick 0 9, .pick 0 101]).map (fun r => (r.2, r.1.q.queue)) =
    .ok ([.bool true, .bool true, .bool true, .bool false, .picked 0, .picked 1, .waits, .unit, .unit,
      .waits, .picked 2], [1, 0]) := by decide

/-- A safe removal. -/
example : (runOps P.step pool [.add 0, .pick 0 5, .remove 0, .done 0 9, .post 0 [0] true, .reap 0, .pick 0 20]).map (·.2) =
    .ok [.bool true, .picked 0, .bool true, .unit, .unit, .unit, .waits] := by decide

end Lms.Pool
