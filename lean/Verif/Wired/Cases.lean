import Verif.Wired.Props

/-! C90: a concrete network, built by the calls, with frames flowing through it. -/

namespace Lms.Wired

open FilterConn
open Net (handled made S)

/-- The state after a call. -/
def after (s : St) (op : Op) : St := match step s op with | .ok (t, _) => t | _ => s

theorem after_ok {s : St} {op : Op} {b : Bool} (h : (match step s op with | .ok (_, c) => decide (c = b) | _ => false) = true) :
    step s op = .ok (after s op, b) := by
  unfold after
  rcases hs : step s op with ⟨t, c⟩ | _ | _
  · rw [hs] at h
    simp only [decide_eq_true_eq] at h
    rw [h]
  · rw [hs] at h; cases h
  · rw [hs] at h; cases h

/-- Filter 0 is connected to filter 1; filter 2 shares its reader; filter 3 writes to filter 1 too. -/
def c0 : St := St.init (fun _ => 2) (fun _ => 1)
def c1 : St := after c0 (.connect 0 1 1 1 yes)
def c2 : St := after c1 (.share 1 2 4 1 true)
def c3 : St := after c2 (.connect 3 1 1 2 yes)

theorem c1_step : step c0 (.connect 0 1 1 1 yes) = .ok (c1, true) := after_ok (by decide +kernel)
theorem c2_step : step c1 (.share 1 2 4 1 true) = .ok (c2, true) := after_ok (by decide +kernel)
theorem c3_step : step c2 (.connect 3 1 1 2 yes) = .ok (c3, true) := after_ok (by decide +kernel)

theorem c1_reach : Reach (fun _ => 2) (fun _ => 1) c1 := .step (op := .connect 0 1 1 1 yes) .init trivial c1_step

theorem c2_plain : Plain c1 (.share 1 2 4 1 true) := by
  intro e _ _ o _ x hx hf
  have : ∀ x ∈ c1.rs, x.f ≠ 2 := by decide +kernel
  exact absurd hf (this x hx)

theorem c2_reach : Reach (fun _ => 2) (fun _ => 1) c2 := .step c1_reach c2_plain c2_step
theorem c3_reach : Reach (fun _ => 2) (fun _ => 1) c3 := .step (op := .connect 3 1 1 2 yes) c2_reach trivial c3_step

/-- Filters 0 and 3 are sources. -/
def net : Net.Graph := wired c3 (fun k => k == 0 || k == 3)

/-- The hypotheses of `connections_make_a_network`, and the network. -/
example : Describes net c3 := network_exists c3_reach _

example : [0, 1, 2, 3].map net.ins = [[], [0, 1], [0], []] ∧ [0, 1, 2, 3].map net.outs = [[0], [], [], [1]] ∧
    [0, 1].map net.src = [0, 3] ∧ [0, 1, 2].map net.dst = [[1, 2], [1], []] := by decide +kernel

/-- The sources deliver a frame each; filter 1 gets both, filter 2 one. -/
def runs : List (Net.Op Nat) :=
  [.add 0, .add 1, .add 2, .add 3,
   .pick 0 1, .begin 0 [], .go 0, .slot 0, .work 0 (fun _ => some 5), .commit 0, .commit 0, .done 0 0, .post 0,
   .pick 0 1, .begin 0 [0, 1], .look 0, .look 0, .go 0, .work 0 (fun _ => none), .commit 0, .drop 0, .done 0 0, .post 0,
   .pick 0 1, .begin 0 [0], .look 0, .go 0, .work 0 (fun _ => none), .commit 0, .drop 0, .done 0 0, .post 0,
   .pick 0 1, .begin 0 [], .go 0, .slot 0, .work 0 (fun _ => some 6), .commit 0, .commit 0, .done 0 0, .post 0]

/-- What an execution shows: frames made for and taken from the queues, by filters 1 and 2; frames waiting. -/
def shows (g : Net.Graph) (ops : List (Net.Op Nat)) : Option (List (List Nat)) :=
  match runOps (S.step g) (S.init g (fun _ => 3) (fun _ _ => 0) (fun _ => 0)) ops with
  | .ok (s, outs) => some [made 0 outs, handled 0 1 outs, handled 0 2 outs, made 1 outs, handled 1 1 outs, handled 1 2 outs,
      [0, 1].map (fun q => (s.ring q).getElements)]
  | _ => none

example : shows net runs = some [[5], [5], [5], [6], [], [], [0, 1]] := by decide +kernel

/-- `only_the_ends_take_part`: filter 2 gets nothing from the queue between 3 and 1. -/
example (ops : List (Net.Op Nat)) (s : S Nat) (outs : List (Net.Out Nat))
    (hr : runOps (S.step net) (S.init net (fun _ => 3) (fun _ _ => 0) (fun _ => 0)) ops = .ok (s, outs)) :
    handled 1 2 outs = [] ∧ made 5 outs = [] := by
  have hd : Describes net c3 := network_exists c3_reach _
  have ok := (connections_make_a_network c3_reach hd).1
  refine ⟨(Net.only_the_ends_take_part net ok _ (fun _ => by omega) _ _ ops s outs hr 1).1 2 (by decide +kernel),
    (Net.only_the_ends_take_part net ok _ (fun _ => by omega) _ _ ops s outs hr 5).2 fun k hk => ?_⟩
  obtain ⟨⟨a, b, h⟩, _⟩ := (hd.outs k 5).1 hk
  have : c3.cell 5 = .none := by decide +kernel
  rw [this] at h; cases h

/-- `connect_lets_frames_flow` for the last connection. -/
example : ∃ q, c2.cell q = .none ∧ (∀ k, q ∈ net.outs k ↔ k = 3) ∧ (∀ k, q ∈ net.ins k ↔ k = 1) := by
  obtain ⟨q, h1, h2, h3, _⟩ := connect_lets_frames_flow (α := Nat) c2_reach c3_step (network_exists c3_reach (fun k => k == 0 || k == 3))
  exact ⟨q, h1, h2, h3⟩

/-- `share_lets_both_have_the_frames` for the share. -/
example : ∃ q, q ∈ (wired c2 fun _ => false).ins 1 ∧ q ∈ (wired c2 fun _ => false).ins 2 := by
  obtain ⟨_, q, _, _, h1, h2, _⟩ := share_lets_both_have_the_frames (α := Nat) c1_reach c2_plain c2_step (network_exists c2_reach fun _ => false)
  exact ⟨q, h1, h2⟩

/-- The reader of filter 1 that filter 2 shares is disconnected; filter 2 still reads the queue. -/
theorem d_step : step c3 (.disconnectR 1 1 true) = .ok (after c3 (.disconnectR 1 1 true), true) := after_ok (by decide +kernel)

example : ([0, 1, 2, 3].map (wired (after c3 (.disconnectR 1 1 true)) fun k => k == 0 || k == 3).ins) = [[], [1], [0], []] ∧
    (∃ e ∈ c3.rs, e = ⟨1, 1, some 0⟩) ∧ (c3.rdr 0).queue = some 0 := by decide +kernel

example : 0 ∈ (wired (after c3 (.disconnectR 1 1 true)) fun _ => false).ins 2 :=
  (disconnected_reader_gets_nothing (α := Nat) c3_reach (f := 1) (o := 0) (q := 0) (id := 1) (by decide +kernel) (by decide +kernel) d_step
    (network_exists (.step (op := .disconnectR 1 1 true) c3_reach trivial d_step) fun _ => false)).1 2 (by omega)
    ⟨⟨2, 4, some 0⟩, by decide +kernel, rfl, 0, rfl, by decide +kernel⟩ (by decide +kernel)

/-- The writer of filter 0 is disconnected; nobody reads its queue any more. -/
theorem w_step : step c3 (.disconnectW 0 1 true) = .ok (after c3 (.disconnectW 0 1 true), true) := after_ok (by decide +kernel)

example : (∃ e ∈ c3.ws, e = ⟨0, 1, 0⟩) ∧ shows (wired (after c3 (.disconnectW 0 1 true)) fun k => k == 0 || k == 3)
    [.add 0, .add 3, .pick 0 1, .begin 0 [], .go 0, .work 0 (fun _ => some 5), .commit 0, .done 0 0, .post 0,
     .pick 0 1, .begin 0 [], .go 0, .slot 0, .work 0 (fun _ => some 6), .commit 0, .commit 0, .done 0 0, .post 0] =
    some [[], [], [], [6], [], [], [0, 1]] := by decide +kernel

end Lms.Wired
