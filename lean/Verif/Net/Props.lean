import Verif.Net.Lemmas

/-! C89: frames flow in order through any network of filters, every one is accounted for, and none gets
stuck. -/

namespace Lms.Net

open Pool (P set_ne)
open FrameQueue (Ring)
open Flow (set_eq)

variable {α : Type}

theorem past_length {L : Nat → Nat → Prop} {s : S α} {gh : Ghost α} {g : Graph} {outs : List (Out α)} (h : InvL L g s gh outs) {q k : Nat}
    (hp : gh.Past q k) : (gh.rest q k).length + 1 = (gh.t q).q.q.length := by
  have := List.length_pos_iff.2 ((h.rd q).1.held hp.1).2
  rw [rest_past hp, List.length_tail]
  omega

theorem inv_flow {L : Nat → Nat → Prop} {s : S α} {gh : Ghost α} {g : Graph} {outs : List (Out α)} (h : InvL L g s gh outs) :
    ∀ q, ∀ k ∈ g.dst q, ∃ waiting : List α,
        (handled q k outs ++ waiting).Sublist (made q outs) ∧
        (made q outs).length = (handled q k outs).length + waiting.length + (s.ring q).lost ∧
        (waiting.length = (s.ring q).getElements ∨
          waiting.length + 1 = (s.ring q).getElements ∧
            ∃ f ∈ g.dst q, (∃ w, s.pool.ph w = .run f) ∨ (handled q f outs).length + 1 = (handled q k outs).length) := by
  intro q k hk
  obtain ⟨a, b⟩ := h.hist q k hk
  have hrel := (h.rd q).1
  refine ⟨gh.rest q k, a, ?_, ?_⟩
  · unfold S.ring
    rw [b, List.length_append, hrel.ring.hlost]
  · unfold S.ring
    rw [hrel.ring.getElements_eq]
    by_cases hp : gh.Past q k
    · right
      have hl := past_length h hp
      refine ⟨hl, ?_⟩
      have hruns : ∀ f, gh.Holds q f → ∃ w, s.pool.ph w = .run f := by
        intro f hf
        by_cases hw : ∃ w, s.pool.ph w = .run f
        · exact hw
        · exact absurd hf (h.free f (fun w hh => hw ⟨w, hh⟩) q).2
      obtain ⟨s1, s2, _, s4⟩ := hrel.sub hp.1
      rw [h.members q] at s1 s2
      rcases s4 with s4 | s4
      · obtain ⟨f, hf⟩ := List.exists_mem_of_ne_nil _ s4
        refine ⟨f, s1 f hf, Or.inr ?_⟩
        have hnp : ¬ gh.Past q f := fun x => x.2.1 hf
        have e := congrArg List.length (h.same q f (s1 f hf) k hk)
        rw [rest_not hnp, List.length_append, List.length_append] at e
        omega
      · obtain ⟨f, hf⟩ := List.exists_mem_of_ne_nil _ s4
        exact ⟨f, s2 f hf, Or.inl (hruns f ⟨hp.1, hf⟩)⟩
    · left
      rw [rest_not hp]

/-- **C89.** Whatever the filters and the workers do and in whatever order, nothing undefined happens,
and for every queue and each of the filters that share its reader: the frames the filter has processed or
passed over, followed by those still to come, are frames the writer has committed, in the same order and
none of them twice; the only ones missing are those the queue counts as lost.  Those still to come are all
in the queue; when the queue has one more, some sharing filter is at work or has yet to deal with it. -/
theorem frames_flow_in_order (g : Graph) (ok : g.Ok) (size : Nat → Nat) (hs : ∀ q, 3 ≤ size q)
    (d : Nat → Nat → α) (time : Nat → Nat) (ops : List (Op α)) :
    ∃ s outs, runOps (S.step g) (S.init g size d time) ops = .ok (s, outs) ∧
      ∀ q, ∀ k ∈ g.dst q, ∃ waiting : List α,
        (handled q k outs ++ waiting).Sublist (made q outs) ∧
        (made q outs).length = (handled q k outs).length + waiting.length + (s.ring q).lost ∧
        (waiting.length = (s.ring q).getElements ∨
          waiting.length + 1 = (s.ring q).getElements ∧
            ∃ f ∈ g.dst q, (∃ w, s.pool.ph w = .run f) ∨ (handled q f outs).length + 1 = (handled q k outs).length) := by
  obtain ⟨g0, h0⟩ := init_inv g ok size hs d time
  obtain ⟨s, outs, gh, h1, h⟩ := run_inv ok ops h0
  rw [List.nil_append] at h
  refine ⟨s, outs, h1, ?_⟩
  exact inv_flow h

theorem reach_inv {g : Graph} (ok : g.Ok) {size : Nat → Nat} (hs : ∀ q, 3 ≤ size q)
    {d : Nat → Nat → α} {time : Nat → Nat} {ops : List (Op α)} {s : S α} {outs : List (Out α)}
    (hr : runOps (S.step g) (S.init g size d time) ops = .ok (s, outs)) : ∃ gh, Inv g s gh outs := by
  obtain ⟨g0, h0⟩ := init_inv g ok size hs d time
  obtain ⟨s', outs', gh, h1, h⟩ := run_inv ok ops h0
  rw [hr] at h1
  injection h1 with h1
  injection h1 with e1 e2
  subst e1; subst e2
  exact ⟨gh, by simpa using h⟩

theorem inv_same {L : Nat → Nat → Prop} {s : S α} {gh : Ghost α} {g : Graph} {outs : List (Out α)} (h : InvL L g s gh outs)
    {q k j : Nat} (hk : k ∈ g.dst q) (hj : j ∈ g.dst q) : handled q j outs = handled q k outs ∨
      ∃ x, handled q j outs = handled q k outs ++ [x] ∨ handled q k outs = handled q j outs ++ [x] := by
  have e := h.same q k hk j hj
  have key : ∀ {a b : Nat}, gh.Past q a → ¬ gh.Past q b → a ∈ g.dst q → b ∈ g.dst q →
      ∃ x, handled q a outs = handled q b outs ++ [x] := by
    intro a b ha hb hda hdb
    have e := h.same q b hdb a hda
    rw [rest_not hb, rest_past ha] at e
    rcases hq : (gh.t q).q.q with _ | ⟨x, l⟩
    · exact absurd hq ((h.rd q).1.held ha.1).2
    · refine ⟨x, ?_⟩
      rw [hq, List.tail_cons] at e
      have e' : handled q a outs ++ l = (handled q b outs ++ [x]) ++ l := by rw [← e]; simp
      exact List.append_cancel_right e'
  by_cases pk : gh.Past q k <;> by_cases pj : gh.Past q j
  · rw [rest_past pk, rest_past pj] at e
    exact Or.inl (List.append_cancel_right e).symm
  · obtain ⟨x, hx⟩ := key pk pj hk hj
    exact Or.inr ⟨x, Or.inr hx⟩
  · obtain ⟨x, hx⟩ := key pj pk hj hk
    exact Or.inr ⟨x, Or.inl hx⟩
  · rw [rest_not pk, rest_not pj] at e
    exact Or.inl (List.append_cancel_right e).symm

/-- **C89.** The filters that share a reader are given the same frames in the same order, and none runs
ahead by more than the frame at hand: of any two, what the one has dealt with is what the other has, but
for at most one frame at the end. -/
theorem sharers_get_the_same_frames (g : Graph) (ok : g.Ok) (size : Nat → Nat) (hs : ∀ q, 3 ≤ size q)
    (d : Nat → Nat → α) (time : Nat → Nat) (ops : List (Op α)) (s : S α)
    (outs : List (Out α)) (hr : runOps (S.step g) (S.init g size d time) ops = .ok (s, outs))
    (q k j : Nat) (hk : k ∈ g.dst q) (hj : j ∈ g.dst q) :
    handled q j outs = handled q k outs ∨
      ∃ x, handled q j outs = handled q k outs ++ [x] ∨ handled q k outs = handled q j outs ++ [x] := by
  obtain ⟨gh, h⟩ := reach_inv ok hs hr
  exact inv_same h hk hj

/-- **C89.** No frame is left behind: as long as there is a frame before a registered filter, that
filter waits in the task queue, or a worker has it in hand, or the worker of the filter that wrote the
frame has yet to deliver its notification. -/
theorem no_frame_left_behind (g : Graph) (ok : g.Ok) (size : Nat → Nat) (hs : ∀ q, 3 ≤ size q)
    (d : Nat → Nat → α) (time : Nat → Nat) (ops : List (Op α)) (s : S α)
    (outs : List (Out α)) (hr : runOps (S.step g) (S.init g size d time) ops = .ok (s, outs))
    (k q : Nat) (hk : q ∈ g.ins k) (hreg : s.pool.reg (k : Int) = some k)
    (hq : 0 < (s.ring q).getElements) :
    k ∈ s.pool.q.queue ∨ (∃ w, s.pool.ph w = .run k ∨ s.pool.ph w = .post k) ∨ Notifies g s q k := by
  obtain ⟨gh, h⟩ := reach_inv ok hs hr
  unfold S.ring at hq
  rw [(h.rd q).1.ring.getElements_eq] at hq
  rcases h.wake q k hk id hreg (List.length_pos_iff.1 hq) with ha | hn
  · exact ha.awake.imp id Or.inl
  · exact Or.inr (Or.inr hn)

/-- **C89.** A periodic filter never falls asleep: once registered it waits in the task queue or a
worker has it in hand. -/
theorem periodic_stays_scheduled (g : Graph) (ok : g.Ok) (size : Nat → Nat) (hs : ∀ q, 3 ≤ size q)
    (d : Nat → Nat → α) (time : Nat → Nat) (ops : List (Op α)) (s : S α)
    (outs : List (Out α)) (hr : runOps (S.step g) (S.init g size d time) ops = .ok (s, outs))
    (k : Nat) (hp : g.periodic k = true) (hreg : s.pool.reg (k : Int) = some k) :
    k ∈ s.pool.q.queue ∨ ∃ w, s.pool.ph w = .run k ∨ s.pool.ph w = .post k := by
  obtain ⟨gh, h⟩ := reach_inv ok hs hr
  exact (h.head k hp hreg).awake

/-- **C89.** When nobody is at work and only sources wait for their turn, all queues before registered
filters are empty: every frame committed has been processed or passed over by each filter it was for, or
is counted as lost. -/
theorem network_at_rest_is_empty (g : Graph) (ok : g.Ok) (size : Nat → Nat) (hs : ∀ q, 3 ≤ size q)
    (d : Nat → Nat → α) (time : Nat → Nat) (ops : List (Op α)) (s : S α)
    (outs : List (Out α)) (hr : runOps (S.step g) (S.init g size d time) ops = .ok (s, outs))
    (hrest : AtRest g s) (k q : Nat) (hk : q ∈ g.ins k) (hreg : s.pool.reg (k : Int) = some k) :
    (s.ring q).getElements = 0 ∧ (handled q k outs).Sublist (made q outs) ∧
      (made q outs).length = (handled q k outs).length + (s.ring q).lost := by
  have hz : (s.ring q).getElements = 0 := by
    rcases Nat.eq_zero_or_pos (s.ring q).getElements with e | e
    · exact e
    · exfalso
      rcases no_frame_left_behind g ok size hs d time ops s outs hr k q hk hreg e with h | ⟨w, h⟩ | ⟨w, h, _⟩
      · have := (hrest.2 _ h).2
        rw [this] at hk
        simp at hk
      · rw [hrest.1 w] at h; simp at h
      · rw [hrest.1 w] at h; simp at h
  obtain ⟨s', outs', h1, h2⟩ := frames_flow_in_order g ok size hs d time ops
  rw [hr] at h1
  injection h1 with h1
  injection h1 with e1 e2
  subst e1; subst e2
  obtain ⟨l, a, b, e⟩ := h2 q k (ok.ins _ _ hk)
  have hl : l = [] := by
    apply List.length_eq_zero_iff.1
    rcases e with e | ⟨e, _⟩ <;> omega
  subst hl
  exact ⟨hz, by simpa using a, by simpa using b⟩

end Lms.Net
