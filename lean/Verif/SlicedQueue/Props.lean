import Verif.SlicedQueue.Lemmas
import Verif.FrameQueue.Props

/-! C05: the sliced video queue. -/

namespace Lms.SlicedQueue
open Lms.FrameQueue (Ring Rel)

/-- The specification over a whole history. -/
theorem create_srel (n ms : Nat) (hn : 2 ≤ n) (hms : 0 < ms) (d : Nat → Coded) (m : Meta) :
    ∃ s, SQ.create n ms d m = some s ∧ SRel s (Spec.init n d m) ∧ s.maxSlice = ms := by
  refine ⟨_, by unfold SQ.create; rw [if_neg (by omega)], ⟨?_, rfl, rfl, by simp⟩, rfl⟩
  exact FrameQueue.create_rel n hn d

theorem runOps_spec (ms : Nat) : ∀ (ops : List Op) (s : SQ) (t : Spec), s.maxSlice = ms →
    SRel s t → (∀ op ∈ ops, Fits ms op) →
    ∃ s', runOps SQ.step s ops = .ok (s', (runSpec Spec.step t ops).2) ∧
      SRel s' (runSpec Spec.step t ops).1 := by
  intro ops s t hs h hops
  have := runOps_refines SQ.step Spec.step (Fits ms) (fun s t => SRel s t ∧ s.maxSlice = ms)
    (by
      rintro s t op hop ⟨h, rfl⟩
      obtain ⟨s', h1, h2, h3⟩ := step_rel s t op hop h
      exact ⟨s', h1, h2, h3⟩) ops s t hops ⟨h, hs⟩
  obtain ⟨s', h1, h2, _⟩ := this
  exact ⟨s', h1, h2⟩

/-- **C05.** Every history of encoder and reader operations on a queue created for at least two
frames behaves like the specification, as long as no slice is larger than a frame buffer: commits
append the picture's slices as one frame each with the picture's metadata, at most 16 slices are
accepted, overflow keeps the oldest `cap-1` frames and the newest one and counts every frame
dropped. -/
theorem sliced_queue_refines (n ms : Nat) (hn : 2 ≤ n) (hms : 0 < ms) (d : Nat → Coded) (m : Meta)
    (ops : List Op) (hops : ∀ op ∈ ops, Fits ms op) :
    ∃ s s', SQ.create n ms d m = some s ∧
      runOps SQ.step s ops = .ok (s', (runSpec Spec.step (Spec.init n d m) ops).2) := by
  obtain ⟨s, h1, h2, h3⟩ := create_srel n ms hn hms d m
  obtain ⟨s', h4, _⟩ := runOps_spec ms ops s _ h3 h2 hops
  exact ⟨s, s', h1, h4⟩

/-- Reachable states: after any history from creation. -/
def Reachable (ms : Nat) (s : SQ) : Prop :=
  ∃ n d m s0 ops outs, 2 ≤ n ∧ 0 < ms ∧ (∀ op ∈ ops, Fits ms op) ∧
    SQ.create n ms d m = some s0 ∧ runOps SQ.step s0 ops = .ok (s, outs)

theorem reachable_srel {ms : Nat} {s : SQ} (h : Reachable ms s) :
    ∃ t, SRel s t ∧ s.maxSlice = ms := by
  obtain ⟨n, d, m, s0, ops, outs, hn, hms, hops, hc, hrun⟩ := h
  obtain ⟨s1, h1, h2, h3⟩ := create_srel n ms hn hms d m
  rw [hc] at h1; cases h1
  have hre := runOps_refines SQ.step Spec.step (Fits ms) (fun s t => SRel s t ∧ s.maxSlice = ms)
    (by
      rintro s t op hop ⟨h, rfl⟩
      obtain ⟨s', h1, h2, h3⟩ := step_rel s t op hop h
      exact ⟨s', h1, h2, h3⟩) ops s0 _ hops ⟨h2, h3⟩
  obtain ⟨s', h4, h5⟩ := hre
  rw [hrun] at h4
  cases h4
  exact ⟨_, h5⟩

/-- The operations of the encoder for one picture. -/
def picture (m : Meta) (slices : List (List UInt8)) : List Op :=
  .setMeta m :: slices.map .setSlice ++ [.commit]

/-- Reading until `k` frames have been requested. -/
def takes (k : Nat) : List Op := List.replicate k .take

theorem spec_takes (t : Spec) : ∀ (q : List Coded), t.q = q →
    (runSpec Spec.step t (takes q.length)).2 = q.map fun x => Out.ring (.frame (some x)) := by
  intro q hq
  induction q generalizing t with
  | nil => rfl
  | cons x q ih =>
    simp only [takes, List.length_cons, List.replicate_succ, runSpec, Spec.step, hq, List.map_cons]
    exact congrArg _ (ih _ rfl)

theorem spec_setSlices (bs : List (List UInt8)) : ∀ (t : Spec), t.pending.length + bs.length ≤ 16 →
    (runSpec Spec.step t (bs.map .setSlice)).1 = { t with pending := t.pending ++ bs } := by
  induction bs with
  | nil => intro t _; simp [runSpec]
  | cons b bs ih =>
    intro t ht
    simp at ht
    simp only [List.map_cons, runSpec, Spec.step]
    rw [if_pos (by omega)]
    rw [ih _ (by simp; omega)]
    simp

/-- **C05.** Reader's view of one picture.  In any reachable state without a half-built picture, if
a picture of at most 16 slices is committed and there is room, then reading on delivers first the
frames that were queued before and then exactly the slices of the picture, one per frame, in the
order set, byte for byte, each with the picture's metadata. -/
theorem picture_delivered_as_slices {ms : Nat} {s : SQ} (hs : Reachable ms s) (hp : s.slices = [])
    (m : Meta) (slices : List (List UInt8)) (h16 : slices.length ≤ 16)
    (hfit : ∀ b ∈ slices, b.length ≤ ms)
    (hroom : s.ring.getElements + slices.length < s.ring.max) :
    ∃ before s1 s2 outs, before.length = s.ring.getElements ∧
      runOps SQ.step s (picture m slices) = .ok (s1, outs) ∧
      runOps SQ.step s1 (takes (before.length + slices.length)) =
        .ok (s2, (before ++ slices.map fun b => (⟨b, m⟩ : Coded)).map
          fun x => Out.ring (.frame (some x))) ∧
      s1.ring.lost = s.ring.lost := by
  obtain ⟨t, ht, hms⟩ := reachable_srel hs
  have hlen := ht.ring.getElements_eq
  have hcap := ht.ring.hcap
  simp only at hlen hcap
  obtain ⟨s1, h1, h2⟩ := runOps_spec ms (picture m slices) s t hms ht (by
    intro op hop
    simp [picture] at hop
    rcases hop with rfl | ⟨b, hb, rfl⟩ | rfl
    · trivial
    · exact hfit b hb
    · trivial)
  have hst : (runSpec Spec.step t (picture m slices)).1 =
      { t with q := t.q ++ slices.map fun b => (⟨b, m⟩ : Coded), pending := [], info := m } := by
    rw [picture, List.cons_append]
    simp only [runSpec, Spec.step]
    rw [runSpec_append]
    rw [spec_setSlices slices _ (by simp [← ht.pend, hp]; exact h16)]
    simp only [runSpec, Spec.step, pictureFrames]
    have e : t.pending = [] := by rw [← ht.pend, hp]
    simp only [e, List.nil_append]
    have hl : (t.q ++ slices.map fun b => (⟨b, m⟩ : Coded)).length ≤ t.cap := by simp; omega
    have e2 : (t.q ++ slices.map fun b => (⟨b, m⟩ : Coded)).length - t.cap = 0 := by omega
    rw [e2]
    unfold appendBounded
    rw [if_pos hl]
    rfl
  have hms1 : s1.maxSlice = ms := by
    have := runOps_refines SQ.step Spec.step (Fits ms) (fun s t => SRel s t ∧ s.maxSlice = ms)
      (by
        rintro s t op hop ⟨h, rfl⟩
        obtain ⟨s', h1, h2, h3⟩ := step_rel s t op hop h
        exact ⟨s', h1, h2, h3⟩) (picture m slices) s t (by
          intro op hop
          simp [picture] at hop
          rcases hop with rfl | ⟨b, hb, rfl⟩ | rfl
          · trivial
          · exact hfit b hb
          · trivial) ⟨ht, hms⟩
    obtain ⟨s', h4, _, h5⟩ := this
    rw [h1] at h4; cases h4; exact h5
  rw [hst] at h2
  obtain ⟨s2, h3, _⟩ := runOps_spec ms (takes (t.q.length + slices.length)) s1 _ hms1 h2 (by
    intro op hop
    simp [takes] at hop
    rw [hop.2]; trivial)
  refine ⟨t.q, s1, s2, _, hlen.symm, h1, ?_, ?_⟩
  · rw [h3]
    have := spec_takes { t with q := t.q ++ slices.map fun b => (⟨b, m⟩ : Coded), pending := [], info := m } _ rfl
    simp only [List.length_append, List.length_map] at this
    rw [this]
  · rw [h2.ring.hlost, ht.ring.hlost]

/-- **C05.** At most 16 slices are accepted per picture: in any state with 16 slices pending the
next one is refused and nothing changes; with fewer it is accepted. -/
theorem seventeenth_slice_refused (s : SQ) (b : List UInt8) :
    (s.slices.length < 16 → s.setSlice b = ({ s with slices := s.slices ++ [b] }, true)) ∧
    (16 ≤ s.slices.length → s.setSlice b = (s, false)) := by
  constructor <;> intro h <;> unfold SQ.setSlice <;> unfold MAX_SLICES
  · rw [if_neg (by omega)]
  · rw [if_pos h]

/-- **C05.** Overflow: in any reachable state, committing the pending picture keeps every frame if
it fits, otherwise exactly `queued + slices - capacity` frames are dropped and all of them are
counted; frames kept are the oldest `capacity - 1` and the newest. -/
theorem overflow_counts_every_dropped_slice {ms : Nat} {s : SQ} (hs : Reachable ms s) :
    ∃ before after s', before.length = s.ring.getElements ∧
      s.addFrame = .ok s' ∧ after.length = s'.ring.getElements ∧
      after = appendBounded (s.ring.max - 1) before (s.slices.map fun b => ⟨b, s.inMeta⟩) ∧
      s'.ring.lost + after.length = s.ring.lost + before.length + s.slices.length ∧
      (∃ s2, runOps SQ.step s' (takes after.length) =
        .ok (s2, after.map fun x => Out.ring (.frame (some x)))) := by
  obtain ⟨t, ht, hms⟩ := reachable_srel hs
  have hlen := ht.ring.getElements_eq
  have hcap := ht.ring.hcap
  have hq := ht.ring.hlen
  have hmx := ht.ring.hmax
  simp only at hlen hcap hq
  obtain ⟨s', h1, h2, h3⟩ := step_rel s t .commit trivial ht
  have h1' : s.addFrame = .ok s' := by
    simp only [SQ.step] at h1
    rcases h : s.addFrame with a | _ | _ <;> rw [h] at h1 <;> simp at h1
    rw [h1.1]
  have ecap : s.ring.max - 1 = t.cap := by omega
  refine ⟨t.q, _, s', hlen.symm, h1', ?_, rfl, ?_, ?_⟩
  · rw [h2.ring.getElements_eq, ecap]
    simp only [Spec.step, pictureFrames, ← ht.pend, ← ht.info]
  · rw [h2.ring.hlost, ht.ring.hlost, ecap]
    simp only [Spec.step, pictureFrames, ← ht.pend]
    unfold appendBounded
    simp only [List.length_append, List.length_map]
    split
    · simp; omega
    · rename_i hgt
      have hne : (t.q ++ s.slices.map fun b => (⟨b, s.inMeta⟩ : Coded)) ≠ [] := by
        intro hc; simp at hc; simp [hc] at hgt
      rw [List.getLast?_eq_some_getLast hne]
      simp; omega
  · obtain ⟨s2, h5, _⟩ := runOps_spec ms (takes (Spec.step t .commit).1.q.length) s' _
      (h3.trans hms) h2 (by
        intro op hop
        simp [takes] at hop
        rw [hop.2]; trivial)
    rw [spec_takes _ _ rfl] at h5
    refine ⟨s2, ?_⟩
    rw [ecap]
    simpa only [Spec.step, pictureFrames, ← ht.pend, ← ht.info] using h5

/-- **C05, finding.** If the encoder gives up on a picture after having set 16 slices (more NAL
units than slots), the slices stay: from then on every slice of every later picture is refused for
as long as no picture is committed, and the encoder commits only complete pictures. -/
theorem abandoned_picture_blocks_encoder (s : SQ) (h : 16 ≤ s.slices.length) (ops : List Op)
    (hops : .commit ∉ ops) (s' : SQ) (outs : List Out) (hrun : runOps SQ.step s ops = .ok (s', outs))
    (b : List UInt8) : 16 ≤ s'.slices.length ∧ (s'.setSlice b).2 = false := by
  have key : 16 ≤ s'.slices.length := by
    induction ops generalizing s outs with
    | nil => simp [runOps] at hrun; rw [← hrun.1]; exact h
    | cons op ops ih =>
      simp only [runOps] at hrun
      have hring : ∀ (o : FrameQueue.Op Coded) (x : SQ × Out), s.onRing o = .ok x →
          x.1.slices = s.slices := by
        intro o x hx
        unfold SQ.onRing at hx
        rcases h' : FrameQueue.step s.ring o with a | _ | _ <;> rw [h'] at hx <;> simp at hx
        rw [← hx]
      have hstep : ∀ x, s.step op = .ok x → 16 ≤ x.1.slices.length := by
        intro x hx
        cases op with
        | setSlice b' =>
          simp only [SQ.step] at hx
          rw [(seventeenth_slice_refused s b').2 h] at hx
          cases hx; exact h
        | setMeta m => simp [SQ.step] at hx; rw [← hx]; exact h
        | commit => exact absurd (List.mem_cons_self) hops
        | giveUp => simp [SQ.step] at hx; rw [← hx]; exact h
        | room =>
          simp only [SQ.step] at hx
          rcases h' : s.ring.getRear with a | _ | _ <;> rw [h'] at hx <;> simp at hx
          rw [← hx]; exact h
        | take => simp only [SQ.step] at hx; rw [hring _ _ hx]; exact h
        | old => simp only [SQ.step] at hx; rw [hring _ _ hx]; exact h
        | count => simp only [SQ.step] at hx; rw [hring _ _ hx]; exact h
      rcases hs1 : s.step op with ⟨s1, o⟩ | _ | _ <;> rw [hs1] at hrun <;> simp at hrun
      rcases hr2 : runOps SQ.step s1 ops with ⟨s2, os⟩ | _ | _ <;> rw [hr2] at hrun <;> simp at hrun
      obtain ⟨rfl, _⟩ := hrun
      exact ih s1 (hstep _ hs1) (fun hc => hops (List.mem_cons_of_mem _ hc)) os hr2
  exact ⟨key, by rw [(seventeenth_slice_refused s' b).2 key]⟩

/-- **C05, precondition.** A slice larger than the frame buffers overruns the buffer it is copied
to when the picture is committed. -/
theorem oversized_slice_is_undefined {ms : Nat} {s : SQ} (hs : Reachable ms s) (hp : s.slices = [])
    (b : List UInt8) (hb : ms < b.length) :
    runOps SQ.step s [.setSlice b, .commit] = .ub := by
  obtain ⟨t, ht, hms⟩ := reachable_srel hs
  obtain ⟨r1, h1, _⟩ := ht.ring.writerSlot_true
  simp only [runOps, SQ.step]
  rw [(seventeenth_slice_refused s b).1 (by simp [hp])]
  simp only [Outcome.bind_ok, SQ.addFrame, hp, List.nil_append, pushBackSliceGroup, pushSlice, h1]
  rw [if_pos (by omega)]
  rfl

/-! ### Concrete cases -/

def m0 : Meta := ⟨40, 40, 7, 3, 64, 48⟩
def blank : Nat → Coded := fun _ => ⟨[], m0⟩

/-- Two slices of one picture, read back with the picture's metadata. -/
example : (SQ.create 4 8 blank m0).map (fun s => (runOps SQ.step s
      (picture ⟨80, 40, 9, 4, 64, 48⟩ [[1, 2], [3]] ++ takes 3)).map (·.2)) =
    some (.ok [.unit, .bool true, .bool true, .unit,
      .ring (.frame (some ⟨[1, 2], ⟨80, 40, 9, 4, 64, 48⟩⟩)),
      .ring (.frame (some ⟨[3], ⟨80, 40, 9, 4, 64, 48⟩⟩)),
      .ring (.frame none)]) := by decide

/-- Overflow in a queue for three frames: slices 1 and 4 of four survive, two are counted. -/
example : (SQ.create 3 8 blank m0).map (fun s => (runOps SQ.step s
      (picture m0 [[1], [2], [3], [4]])).map (fun x => (x.1.ring.lost, x.1.ring.getElements))) =
    some (.ok (2, 2)) := by decide

/-- A reachable state with 16 slices pending after a failed picture. -/
example : (SQ.create 4 8 blank m0).map (fun s => (runOps SQ.step s
      (List.replicate 17 (.setSlice [1]) ++ [.giveUp, .setSlice [2]])).map
        (fun x => (x.1.slices.length, x.2.getLast?))) =
    some (.ok (16, some (.bool false))) := by decide

end Lms.SlicedQueue
