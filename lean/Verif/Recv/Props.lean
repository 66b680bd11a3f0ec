import Verif.Recv.Lemmas
import Mathlib.Data.List.Forall2

/-!
# C48: frames received from the network

`Exact size p c` is the specification: the frame `c` of a queue whose frames have `size` bytes carries what the
network delivered as `p`.
-/

namespace Lms.Recv
open Lms.FrameQueue

/-- The content read back is the payload (as far as it fits the frame), with its exact length and time. -/
def Exact (size : Nat) (p : Pkt) (c : Content) : Prop :=
  c.len = min p.data.length size ∧ c.len ≤ c.buf.length ∧ c.buf.take c.len = p.data.take size ∧ c.pts = 1000000 * p.sec + p.usec

/-- Connected, and receiving into the queue. -/
structure Steady (size : Nat) (r : Ring Content) (s : St) : Prop where
  ring : s.ring = some r
  wf : WF r
  bufs : ∀ j, (r.slots j).buf.length = size
  olds : ∀ g ∈ s.olds, g < s.gen
  state : (s.sink.next = true ∧ s.sink.pend = none ∧ s.sink.task = true) ∨
    ∃ i, s.sink.frame = some i ∧ s.sink.next = false ∧ r.getRear = .ok (some i) ∧ Fetching i s

/-- Connected, with the fetch into the dummy buffer of before still under way. -/
structure Waiting (size : Nat) (r : Ring Content) (s : St) : Prop where
  ring : s.ring = some r
  wf : WF r
  bufs : ∀ j, (r.slots j).buf.length = size
  olds : ∀ g ∈ s.olds, g < s.gen
  pend : s.sink.pend = some .dummy
  task : s.sink.task = false
  state : s.sink.next = true ∨ ∃ i, s.sink.frame = some i ∧ s.sink.next = false ∧ r.getRear = .ok (some i)

theorem exact_received {size : Nat} {c : Content} (hc : c.buf.length = size) (p : Pkt) : Exact size p (received c p) := by
  subst hc
  refine ⟨by simp [received, Nat.min_comm], by simp only [received, List.length_append]; omega, ?_, by simp only [received]; omega⟩
  simp only [received]
  exact List.take_left' rfl

theorem received_length {c : Content} (p : Pkt) : (received c p).buf.length = c.buf.length := by
  simp only [received, List.length_append, List.length_take, List.length_drop]; omega

theorem bufs_write {size : Nat} {r : Ring Content} (h : ∀ j, (r.slots j).buf.length = size) (i : Nat) {c : Content} (hc : c.buf.length = size) :
    ∀ j, ((r.write i c).slots j).buf.length = size := by
  intro j
  simp only [Ring.write]
  split
  · exact hc
  · exact h j

/-- The frame demanded in a round reaches the sink. -/
theorem setFrame_one {r r1 : Ring Content} {i : Nat} {s : St} (hg : s.gen ∉ s.olds) (hr : s.ring = some r)
    (hst : s.sink.next = true ∨ ∃ j, s.sink.frame = some j ∧ s.sink.next = false ∧ r.getRear = .ok (some j)) (hw : WF r)
    (hslot : r.writerSlot true = .ok (r1, some i)) (h1 : r1.getRear = .ok (some i)) :
    One i r1 (setFrame { s with ring := some r1, marked := [] } i) := by
  unfold setFrame
  rcases hst with h | ⟨j, hf, hn, hj⟩
  · simp only [h, if_true]; exact ⟨rfl, rfl, rfl, rfl, hg⟩
  · simp only [hn, Bool.false_eq_true, if_false]
    refine ⟨rfl, ?_, hn, rfl, hg⟩
    rw [Ring.writerSlot, hj] at hslot
    cases hslot
    exact hf

/-- What a round does once the library is done. -/
theorem round_eq {s : St} {r r1 : Ring Content} {i : Nat} (hr : s.ring = some r) (hslot : r.writerSlot true = .ok (r1, some i)) (l : List Act) :
    round s l = (acts (setFrame { s with ring := some r1, marked := [] } i) l).bind fun y =>
      if i ∈ y.1.marked then
        match y.1.ring with
        | none => .ub
        | some r2 => r2.addFrame.map fun r3 => ({ y.1 with ring := some r3 }, y.2)
      else .ok y := by
  rw [round, hr]
  simp only
  rw [hslot]
  rfl

/-- **A round while receiving.** At most one frame is taken from the network. It is committed to the queue in
this round, once, exactly; without one nothing is committed. In the terms of the queue: the round is a forced
write of a frame carrying exactly what was received, or the demand for a frame alone. -/
theorem round_receives {size : Nat} {r : Ring Content} {s : St} (h : Steady size r s) (l : List Act) :
    ∃ t ps r', round s l = .ok (t, ps) ∧ Steady size r' t ∧
      ((ps = [] ∧ ∃ i, r.writerSlot true = .ok (r', some i)) ∨
        ∃ p c, ps = [p] ∧ Exact size p c ∧ FrameQueue.step r (.forcePut c) = .ok (r', .done)) := by
  obtain ⟨r1, i, e1, e2, e3, e4, e5, e6, e7⟩ := writerSlot_ok h.wf
  have hgo : s.gen ∉ s.olds := fun hm => Nat.lt_irrefl _ (h.olds _ hm)
  have hone := setFrame_one hgo h.ring (h.state.imp (fun x => x.1) (fun ⟨j, a, b, c, _⟩ => ⟨j, a, b, c⟩)) h.wf e1 e3
  have hfet : Fetching i (setFrame { s with ring := some r1, marked := [] } i) := by
    unfold setFrame
    rcases h.state with ⟨h1, h2, h3⟩ | ⟨j, hf, hn, hj, hfe⟩
    · simp only [h1, if_true]; exact .inl ⟨h2, h3⟩
    · simp only [hn, Bool.false_eq_true, if_false]
      rw [Ring.writerSlot, hj] at e1
      cases e1
      exact hfe
  have hgen : (setFrame { s with ring := some r1, marked := [] } i).gen = s.gen ∧ (setFrame { s with ring := some r1, marked := [] } i).olds = s.olds := by
    unfold setFrame; split <;> exact ⟨rfl, rfl⟩
  have hb1 : ∀ j, (r1.slots j).buf.length = size := by rw [e4]; exact h.bufs
  obtain ⟨t, ps, a1, a2, a3, a4⟩ := acts_one l hone hfet
  rw [round_eq h.ring e1 l, a1]
  simp only [Outcome.bind_ok]
  rcases a4 with ⟨rfl, b1, b2⟩ | ⟨p, rfl, b1⟩
  · rw [if_neg (by rw [b1.marked]; simp)]
    refine ⟨t, [], r1, rfl, ⟨b1.ring, e2, hb1, by rw [a2, a3, hgen.1, hgen.2]; exact h.olds, .inr ⟨i, b1.frame, b1.next, e3, b2⟩⟩, .inl ⟨rfl, i, e1⟩⟩
  · rw [if_pos (by rw [b1.marked]; simp)]
    simp only [b1.ring]
    obtain ⟨r3, c1, c2, c3⟩ := addFrame_ok (e2.write i (received (r1.slots i) p)) (i := i) e3
    rw [c1]
    refine ⟨_, [p], r3, rfl, ⟨rfl, c2, by rw [c3]; exact bufs_write hb1 i ((received_length p).trans (hb1 i)), ?_, .inl ⟨b1.next, b1.pend, b1.task⟩⟩,
      .inr ⟨p, received (r1.slots i) p, rfl, exact_received (hb1 i) p, ?_⟩⟩
    · show ∀ g ∈ t.olds, g < t.gen
      rw [a2, a3, hgen.1, hgen.2]; exact h.olds
    · simp only [FrameQueue.step, e1, Outcome.bind_ok, c1]

/-- **Recorded exception: the first frame after connecting.** While the fetch into the dummy buffer is still
under way, the frame it completes with is committed with its length and time, but over the bytes that happened
to be in the queue's frame: the payload is lost. After it the stream is received as in `round_receives`. -/
theorem first_frame_misplaced {size : Nat} {r : Ring Content} {s : St} (h : Waiting size r s) (l : List Act) :
    ∃ t ps r', round s l = .ok (t, ps) ∧
      ((ps = [] ∧ Waiting size r' t ∧ ∃ i, r.writerSlot true = .ok (r', some i)) ∨
        ∃ p c i, ps = [p] ∧ Steady size r' t ∧ c.buf = (r.slots i).buf ∧ c.len = min p.data.length 200000 ∧ c.pts = 1000000 * p.sec + p.usec ∧
          FrameQueue.step r (.forcePut c) = .ok (r', .done)) := by
  obtain ⟨r1, i, e1, e2, e3, e4, e5, e6, e7⟩ := writerSlot_ok h.wf
  have hgo : s.gen ∉ s.olds := fun hm => Nat.lt_irrefl _ (h.olds _ hm)
  have hone := setFrame_one hgo h.ring h.state h.wf e1 e3
  have hp : (setFrame { s with ring := some r1, marked := [] } i).sink.pend = some .dummy ∧ (setFrame { s with ring := some r1, marked := [] } i).sink.task = false := by
    unfold setFrame; split <;> exact ⟨h.pend, h.task⟩
  have hgen : (setFrame { s with ring := some r1, marked := [] } i).gen = s.gen ∧ (setFrame { s with ring := some r1, marked := [] } i).olds = s.olds := by
    unfold setFrame; split <;> exact ⟨rfl, rfl⟩
  have hb1 : ∀ j, (r1.slots j).buf.length = size := by rw [e4]; exact h.bufs
  obtain ⟨t, ps, a1, a2, a3, a4⟩ := acts_dummy l hone hp.1 hp.2
  rw [round_eq h.ring e1 l, a1]
  simp only [Outcome.bind_ok]
  rcases a4 with ⟨rfl, rfl⟩ | ⟨p, rfl, b1⟩
  · rw [if_neg (by rw [hone.marked]; simp)]
    refine ⟨_, [], r1, rfl, .inl ⟨rfl, ⟨hone.ring, e2, hb1, by rw [hgen.1, hgen.2]; exact h.olds, hp.1, hp.2, .inr ⟨i, hone.frame, hone.next, e3⟩⟩, i, e1⟩⟩
  · rw [if_pos (by rw [b1.marked]; simp)]
    simp only [b1.ring]
    obtain ⟨r3, c1, c2, c3⟩ := addFrame_ok (e2.write i (misplaced (r1.slots i) p)) (i := i) e3
    rw [c1]
    refine ⟨_, [p], r3, rfl, .inr ⟨p, misplaced (r1.slots i) p, i, rfl, ⟨rfl, c2, by rw [c3]; exact bufs_write hb1 i (hb1 i), ?_, .inl ⟨b1.next, b1.pend, b1.task⟩⟩,
      by rw [misplaced, e4], rfl, by simp only [misplaced]; omega, ?_⟩⟩
    · show ∀ g ∈ t.olds, g < t.gen
      rw [a2, a3, hgen.1, hgen.2]; exact h.olds
    · simp only [FrameQueue.step, e1, Outcome.bind_ok, c1]

/-- Connected, but the sink will not take a frame again. -/
structure Stuck (r : Ring Content) (s : St) : Prop where
  ring : s.ring = some r
  wf : WF r
  olds : ∀ g ∈ s.olds, g < s.gen
  frame : s.sink.frame = none
  next : s.sink.next = false
  excl : (s.sink.pend = none ∧ s.sink.task = true) ∨ (s.sink.pend ≠ none ∧ s.sink.task = false)
  mem : ∀ g i, s.sink.pend = some (.slot g i) → g ∈ s.olds

/-- No writer connected. -/
structure Off (s : St) : Prop where
  ring : s.ring = none
  olds : ∀ g ∈ s.olds, g ≤ s.gen
  frame : s.sink.frame = none
  excl : (s.sink.pend = none ∧ s.sink.task = true) ∨ (s.sink.pend ≠ none ∧ s.sink.task = false)
  mem : ∀ g i, s.sink.pend = some (.slot g i) → g ∈ s.olds
  next : (∃ g i, s.sink.pend = some (.slot g i)) → s.sink.next = false

/-- A round while stuck commits nothing. -/
theorem round_stuck {r : Ring Content} {s : St} (h : Stuck r s) (l : List Act) : ∃ t ps r1 i, round s l = .ok (t, ps) ∧ Stuck r1 t ∧ r.writerSlot true = .ok (r1, some i) := by
  obtain ⟨r1, i, e1, e2, e3, e4, e5, e6, e7⟩ := writerSlot_ok h.wf
  have hs : setFrame { s with ring := some r1, marked := [] } i = { s with ring := some r1, marked := [] } := by
    unfold setFrame; rw [if_neg]; rw [h.next]; exact Bool.false_ne_true
  have hid : Idle { s with ring := some r1, marked := [] } := ⟨h.frame, h.excl, h.mem, rfl⟩
  obtain ⟨t, ps, a1, a2, a3, a4, a5, a6, _⟩ := acts_idle l hid
  rw [round_eq h.ring e1 l, hs, a1]
  simp only [Outcome.bind_ok]
  rw [if_neg (by rw [a2.marked]; simp)]
  exact ⟨t, ps, r1, i, rfl, ⟨a3, e2, by rw [a4, a5]; exact h.olds, a2.frame, a6.trans h.next, a2.excl, a2.mem⟩, e1⟩

/-- A round without a writer drops what it receives. -/
theorem round_off {s : St} (h : Off s) (l : List Act) : ∃ t ps, round s l = .ok (t, ps) ∧ Off t ∧ t.sink.next = s.sink.next := by
  have hid : Idle { s with marked := [] } := ⟨h.frame, h.excl, h.mem, rfl⟩
  obtain ⟨t, ps, a1, a2, a3, a4, a5, a6, a7⟩ := acts_idle l hid
  have hr : round s l = acts { s with marked := [] } l := by
    unfold round
    split
    · rfl
    · rename_i r hr; rw [h.ring] at hr; cases hr
  rw [hr]
  refine ⟨t, ps, a1, ⟨a3.trans h.ring, by rw [a4, a5]; exact h.olds, a2.frame, a2.excl, a2.mem, ?_⟩, a6⟩
  rintro ⟨g, i, hg⟩
  rw [a6]
  apply h.next
  apply Classical.byContradiction
  intro hno
  exact a7 (fun g i hgi => hno ⟨g, i, hgi⟩) g i hg

/-- The four situations of a stream. -/
def Sane (s : St) : Prop := (∃ size r, Steady size r s) ∨ (∃ size r, Waiting size r s) ∨ (∃ r, Stuck r s) ∨ Off s

/-- What the environment must not do: connect a queue of fewer than two frames, free a queue the library is
receiving into. -/
def Good (s : St) : Op → Prop
  | .connect n _ => 2 ≤ n
  | .free g => ∀ i, s.sink.pend ≠ some (.slot g i)
  | _ => True

/-- Taking a frame leaves indices, buffers and the writer's frame. -/
theorem take_ok {r : Ring Content} {s : St} (hr : s.ring = some r) (hw : WF r) : ∃ t o r', take s = .ok (t, o) ∧ t = { s with ring := some r' } ∧ WF r' ∧
    r'.slots = r.slots ∧ (∀ i, r.getRear = .ok (some i) → r'.getRear = .ok (some i)) ∧ r'.rear = r.rear ∧
    FrameQueue.step r .take = .ok (r', .frame o) ∧ (o = none ↔ r.rear = r.front) := by
  have h2 := hw.two
  have hre := hw.rear
  have hfr := hw.front
  unfold take
  rw [hr]
  simp only [Ring.getFront]
  by_cases he : r.rear = r.front
  · rw [if_pos he]
    refine ⟨s, none, r, rfl, by rw [← hr], hw, rfl, fun _ h => h, rfl, ?_, ⟨fun _ => he, fun _ => rfl⟩⟩
    simp only [FrameQueue.step, Ring.getFront, if_pos he]
  · rw [if_neg he]
    simp only [Ring.removeFrame, if_neg he, if_neg (by omega : ¬ r.max = 0), Outcome.map_ok]
    refine ⟨_, _, _, rfl, rfl, ⟨h2, hre, Nat.mod_lt _ (by omega)⟩, rfl, ?_, rfl, ?_, ⟨fun h => (by cases h), fun h => absurd h he⟩⟩
    · intro i hi
      obtain ⟨rfl, hne⟩ := getRear_some hw hi
      apply getRear_of_ne (r := { r with front := (r.front + 1) % r.max }) ⟨h2, hre, Nat.mod_lt _ (by omega)⟩
      show (r.rear + 1) % r.max ≠ (r.front + 1) % r.max
      rw [succ_mod hre, succ_mod hfr]
      split <;> split <;> omega
    · have hmax : r.max ≠ 0 := by omega
      simp [FrameQueue.step, Ring.getFront, Ring.removeFrame, he, hmax]

theorem create_wf {n : Nat} (hn : 2 ≤ n) (d : Nat → Content) : WF (Ring.create n d) := by
  have hm : 2 ≤ (Ring.create n d).max := by
    unfold Ring.create; show 2 ≤ if _ then _ else _; unfold MAX_FRAMES; split <;> omega
  exact ⟨hm, by show 0 < _; omega, by show 0 < _; omega⟩

/-- Every step is defined and leads from one of the four situations to one of them. -/
theorem step_sane {s : St} (h : Sane s) {op : Op} (hg : Good s op) : ∃ t o, step s op = .ok (t, o) ∧ Sane t := by
  cases op with
  | round l =>
    rcases h with ⟨size, r, h⟩ | ⟨size, r, h⟩ | ⟨r, h⟩ | h
    · obtain ⟨t, ps, r', e1, e2, _⟩ := round_receives h l
      exact ⟨t, _, by rw [step, e1]; rfl, .inl ⟨_, _, e2⟩⟩
    · obtain ⟨t, ps, r', e1, ⟨_, e2, _⟩ | ⟨p, c, i, _, e2, _⟩⟩ := first_frame_misplaced h l
      · exact ⟨t, _, by rw [step, e1]; rfl, .inr (.inl ⟨_, _, e2⟩)⟩
      · exact ⟨t, _, by rw [step, e1]; rfl, .inl ⟨_, _, e2⟩⟩
    · obtain ⟨t, ps, r1, i, e1, e2, _⟩ := round_stuck h l
      exact ⟨t, _, by rw [step, e1]; rfl, .inr (.inr (.inl ⟨_, e2⟩))⟩
    · obtain ⟨t, ps, e1, e2, _⟩ := round_off h l
      exact ⟨t, _, by rw [step, e1]; rfl, .inr (.inr (.inr e2))⟩
  | take =>
    rcases h with ⟨size, r, h⟩ | ⟨size, r, h⟩ | ⟨r, h⟩ | h
    · obtain ⟨t, o, r', e1, rfl, e3, e4, e5, _⟩ := take_ok h.ring h.wf
      refine ⟨{ s with ring := some r' }, _, by rw [step, e1]; rfl, .inl ⟨size, r', ⟨rfl, e3, by rw [e4]; exact h.bufs, h.olds, h.state.imp id ?_⟩⟩⟩
      rintro ⟨i, a, b, c, d⟩; exact ⟨i, a, b, e5 i c, d⟩
    · obtain ⟨t, o, r', e1, rfl, e3, e4, e5, _⟩ := take_ok h.ring h.wf
      refine ⟨{ s with ring := some r' }, _, by rw [step, e1]; rfl, .inr (.inl ⟨size, r', ⟨rfl, e3, by rw [e4]; exact h.bufs, h.olds, h.pend, h.task, h.state.imp id ?_⟩⟩)⟩
      rintro ⟨i, a, b, c⟩; exact ⟨i, a, b, e5 i c⟩
    · obtain ⟨t, o, r', e1, rfl, e3, e4, e5, _⟩ := take_ok h.ring h.wf
      exact ⟨{ s with ring := some r' }, _, by rw [step, e1]; rfl, .inr (.inr (.inl ⟨r', ⟨rfl, e3, h.olds, h.frame, h.next, h.excl, h.mem⟩⟩))⟩
    · exact ⟨s, ([], none), by rw [step, take, h.ring]; rfl, .inr (.inr (.inr h))⟩
  | connect n size =>
    have hcon : ∀ r, s.ring = some r → connect s n size = s := by intro r hr; rw [connect, hr]
    rcases h with ⟨sz, r, h⟩ | ⟨sz, r, h⟩ | ⟨r, h⟩ | h
    · exact ⟨s, _, by rw [step, hcon r h.ring], .inl ⟨_, _, h⟩⟩
    · exact ⟨s, _, by rw [step, hcon r h.ring], .inr (.inl ⟨_, _, h⟩)⟩
    · exact ⟨s, _, by rw [step, hcon r h.ring], .inr (.inr (.inl ⟨_, h⟩))⟩
    · have hn : 2 ≤ n := hg
      refine ⟨connect s n size, _, rfl, ?_⟩
      have hc : connect s n size = { s with gen := s.gen + 1, ring := some (Ring.create n fun _ => ⟨List.replicate size 0, 0, 0⟩) } := by rw [connect, h.ring]
      rw [hc]
      have hwf := create_wf hn fun _ => ⟨List.replicate size 0, 0, 0⟩
      have hold : ∀ g ∈ s.olds, g < s.gen + 1 := fun g hm => Nat.lt_succ_of_le (h.olds g hm)
      by_cases hx : s.sink.next = true
      · rcases h.excl with ⟨h1, h2⟩ | ⟨h1, h2⟩
        · exact .inl ⟨size, _, ⟨rfl, hwf, fun j => by simp [Ring.create], hold, .inl ⟨hx, h1, h2⟩⟩⟩
        · refine .inr (.inl ⟨size, _, ⟨rfl, hwf, fun j => by simp [Ring.create], hold, ?_, h2, .inl hx⟩⟩)
          show s.sink.pend = some .dummy
          cases hp : s.sink.pend with
          | none => exact absurd hp h1
          | some d => cases d with
            | dummy => rfl
            | slot g i => rw [h.next ⟨g, i, hp⟩] at hx; cases hx
      · exact .inr (.inr (.inl ⟨_, ⟨rfl, hwf, hold, h.frame, by simpa using hx, h.excl, h.mem⟩⟩))
  | disconnect =>
    refine ⟨disconnect s, _, rfl, .inr (.inr (.inr ?_))⟩
    rcases h with ⟨size, r, h⟩ | ⟨size, r, h⟩ | ⟨r, h⟩ | h
    · have hd : disconnect s = { s with ring := none, olds := s.gen :: s.olds, sink := { s.sink with frame := none } } := by rw [disconnect, h.ring]
      rw [hd]
      refine ⟨rfl, ?_, rfl, ?_, ?_, ?_⟩
      · intro g hm
        rcases List.mem_cons.1 hm with rfl | hm
        · exact Nat.le_refl _
        · exact Nat.le_of_lt (h.olds g hm)
      · rcases h.state with ⟨_, h2, h3⟩ | ⟨i, _, _, _, hf⟩
        · exact .inl ⟨h2, h3⟩
        · rcases hf with ⟨h2, h3⟩ | ⟨h2, h3⟩
          · exact .inl ⟨h2, h3⟩
          · exact .inr ⟨by show s.sink.pend ≠ none; rw [h2]; simp, h3⟩
      · intro g j hp
        have hp : s.sink.pend = some (.slot g j) := hp
        rcases h.state with ⟨_, h2, h3⟩ | ⟨i, _, _, _, ⟨h2, h3⟩ | ⟨h2, h3⟩⟩
        · rw [h2] at hp; cases hp
        · rw [h2] at hp; cases hp
        · rw [h2] at hp; cases hp; exact List.mem_cons_self ..
      · rintro ⟨g, j, hp⟩
        have hp : s.sink.pend = some (.slot g j) := hp
        rcases h.state with ⟨_, h2, h3⟩ | ⟨i, _, hn, _⟩
        · rw [h2] at hp; cases hp
        · exact hn
    · have hd : disconnect s = { s with ring := none, olds := s.gen :: s.olds, sink := { s.sink with frame := none } } := by rw [disconnect, h.ring]
      rw [hd]
      refine ⟨rfl, ?_, rfl, .inr ⟨by show s.sink.pend ≠ none; rw [h.pend]; simp, h.task⟩, ?_, ?_⟩
      · intro g hm
        rcases List.mem_cons.1 hm with rfl | hm
        · exact Nat.le_refl _
        · exact Nat.le_of_lt (h.olds g hm)
      · intro g j hp
        have hp : s.sink.pend = some (.slot g j) := hp
        rw [h.pend] at hp; cases hp
      · rintro ⟨g, j, hp⟩
        have hp : s.sink.pend = some (.slot g j) := hp
        rw [h.pend] at hp; cases hp
    · have hd : disconnect s = { s with ring := none, olds := s.gen :: s.olds, sink := { s.sink with frame := none } } := by rw [disconnect, h.ring]
      rw [hd]
      refine ⟨rfl, ?_, rfl, h.excl, fun g i hp => List.mem_cons_of_mem _ (h.mem g i hp), fun _ => h.next⟩
      intro g hm
      rcases List.mem_cons.1 hm with rfl | hm
      · exact Nat.le_refl _
      · exact Nat.le_of_lt (h.olds g hm)
    · have hd : disconnect s = s := by rw [disconnect, h.ring]
      rw [hd]; exact h
  | free g =>
    refine ⟨free s g, _, rfl, ?_⟩
    have hmem : ∀ o, o ∈ (free s g).olds ↔ o ∈ s.olds ∧ o ≠ g := by
      intro o; simp only [free, List.mem_filter, decide_eq_true_eq]
    have hg : ∀ i, s.sink.pend ≠ some (.slot g i) := hg
    rcases h with ⟨size, r, h⟩ | ⟨size, r, h⟩ | ⟨r, h⟩ | h
    · exact .inl ⟨size, r, ⟨h.ring, h.wf, h.bufs, fun o ho => h.olds o ((hmem o).1 ho).1, h.state⟩⟩
    · exact .inr (.inl ⟨size, r, ⟨h.ring, h.wf, h.bufs, fun o ho => h.olds o ((hmem o).1 ho).1, h.pend, h.task, h.state⟩⟩)
    · exact .inr (.inr (.inl ⟨r, ⟨h.ring, h.wf, fun o ho => h.olds o ((hmem o).1 ho).1, h.frame, h.next, h.excl, fun o i hp =>
        (hmem o).2 ⟨h.mem o i hp, by rintro rfl; exact hg i hp⟩⟩⟩))
    · exact .inr (.inr (.inr ⟨h.ring, fun o ho => h.olds o ((hmem o).1 ho).1, h.frame, h.excl, fun o i hp =>
        (hmem o).2 ⟨h.mem o i hp, by rintro rfl; exact hg i hp⟩, h.next⟩))

/-- The states a stream may get into. -/
inductive Reach : St → Prop where
  | init : Reach .init
  | step {s t : St} {op : Op} {o : List Pkt × Option Content} : Reach s → Good s op → step s op = .ok (t, o) → Reach t

theorem Reach.sane {s : St} (h : Reach s) : Sane s := by
  induction h with
  | init => exact .inr (.inr (.inr ⟨rfl, fun g h => (by cases h), rfl, .inr ⟨by simp [St.init], rfl⟩, fun g i h => (by cases h), fun ⟨g, i, h⟩ => (by cases h)⟩))
  | step _ hg hs ih =>
    obtain ⟨t, o, e1, e2⟩ := step_sane ih hg
    rw [e1] at hs; cases hs; exact e2

/-- No history is undefined behaviour or makes the library abort, as long as no queue is freed under a fetch. -/
theorem never_ub {s : St} (h : Reach s) {op : Op} (hg : Good s op) : ∃ t o, step s op = .ok (t, o) := by
  obtain ⟨t, o, e, _⟩ := step_sane h.sane hg
  exact ⟨t, o, e⟩

/-- A stream connected anew is received exactly from its first frame when no fetch is under way. -/
theorem connect_steady {s : St} (h : Off s) (hp : s.sink.pend = none) (hn : s.sink.next = true) {n size : Nat} (h2 : 2 ≤ n) :
    Steady size (Ring.create n fun _ => ⟨List.replicate size 0, 0, 0⟩) (connect s n size) := by
  have hc : connect s n size = { s with gen := s.gen + 1, ring := some (Ring.create n fun _ => ⟨List.replicate size 0, 0, 0⟩) } := by rw [connect, h.ring]
  rw [hc]
  refine ⟨rfl, create_wf h2 _, fun j => by simp [Ring.create], fun g hm => Nat.lt_succ_of_le (h.olds g hm), .inl ⟨hn, hp, ?_⟩⟩
  rcases h.excl with ⟨_, h⟩ | ⟨h, _⟩
  · exact h
  · exact absurd hp h

/-- At every round of the history the queue has a place free. -/
def KeepsUp (s : St) : List Op → Prop
  | [] => True
  | op :: ops => (∀ l, op = .round l → ∀ r, s.ring = some r → r.getElements + 1 < r.max) ∧
      ∀ t o, step s op = .ok (t, o) → KeepsUp t ops

/-- Frames taken from the network and frames handed to the reader in a history. -/
def fromNet (outs : List (List Pkt × Option Content)) : List Pkt := (outs.map Prod.fst).flatten
def toReader (outs : List (List Pkt × Option Content)) : List Content := outs.filterMap Prod.snd

theorem forall2_append {α β : Type} {R : α → β → Prop} {a c : List α} {b d : List β} (h1 : List.Forall₂ R a b) (h2 : List.Forall₂ R c d) : List.Forall₂ R (a ++ c) (b ++ d) := by
  induction h1 with
  | nil => exact h2
  | cons h _ ih => exact .cons h ih

/-- **End to end.** While a stream is received and its reader keeps up, what the reader has taken, followed by
what is still queued, is exactly what came from the network: every frame once, in order, with its bytes, length
and time. -/
theorem received_in_order {size : Nat} : ∀ (ops : List Op) {r : Ring Content} {s : St} {q : Spec Content} {ps : List Pkt}, Steady size r s → FrameQueue.Rel r q →
    List.Forall₂ (Exact size) ps q.q → (∀ op ∈ ops, op = .take ∨ ∃ l, op = .round l) → KeepsUp s ops →
    ∃ t outs r' rest, runOps step s ops = .ok (t, outs) ∧ Steady size r' t ∧ r'.getElements = rest.length ∧
      List.Forall₂ (Exact size) (ps ++ fromNet outs) (toReader outs ++ rest) ∧ FrameQueue.Rel r' { q with q := rest, last := ((q.last :: toReader outs).getLast?).getD q.last } := by
  intro ops
  induction ops with
  | nil =>
    intro r s q ps h hrel hps _ _
    refine ⟨s, [], r, q.q, rfl, h, hrel.getElements_eq, by simpa [fromNet, toReader] using hps, by simpa [toReader] using hrel⟩
  | cons op ops ih =>
    intro r s q ps h hrel hps hops hk
    obtain ⟨hk1, hk2⟩ := hk
    have hops' : ∀ op ∈ ops, op = .take ∨ ∃ l, op = .round l := fun o ho => hops o (List.mem_cons_of_mem _ ho)
    rcases hops op (List.mem_cons_self ..) with rfl | ⟨l, rfl⟩
    · obtain ⟨t, o, r', e1, e2, e3, e4, e5, e6, e7, e8⟩ := take_ok h.ring h.wf
      have hst : step s .take = .ok (t, ([], o)) := by rw [step, e1]; rfl
      have hsteady : Steady size r' t := by
        rw [e2]
        refine ⟨rfl, e3, by rw [e4]; exact h.bufs, h.olds, h.state.imp id ?_⟩
        rintro ⟨i, a, b, c, d⟩; exact ⟨i, a, b, e5 i c, d⟩
      obtain ⟨r'', g1, g2⟩ := step_rel r q .take hrel
      rw [e7] at g1
      obtain ⟨cap, qq, last, lost⟩ := q
      cases qq with
      | nil =>
        simp only [Spec.step] at g1 g2
        cases g1
        obtain ⟨u, outs, rf, rest, k1, k2, k3, k4, k5⟩ := ih hsteady g2 hps hops' (hk2 _ _ hst)
        refine ⟨u, ([], none) :: outs, rf, rest, by rw [runOps, hst]; simp only [Outcome.bind_ok, k1], k2, k3, ?_, ?_⟩
        · simpa [fromNet, toReader] using k4
        · simpa [toReader] using k5
      | cons c qq =>
        simp only [Spec.step] at g1 g2
        cases g1
        cases hps with
        | @cons p _ ps' _ hp hps =>
          obtain ⟨u, outs, rf, rest, k1, k2, k3, k4, k5⟩ := ih hsteady g2 hps hops' (hk2 _ _ hst)
          refine ⟨u, ([], some c) :: outs, rf, rest, by rw [runOps, hst]; simp only [Outcome.bind_ok, k1], k2, k3, ?_, ?_⟩
          · have : List.Forall₂ (Exact size) (p :: (ps' ++ fromNet outs)) (c :: (toReader outs ++ rest)) := .cons hp k4
            simpa [fromNet, toReader] using this
          · have e : ((last :: toReader (([], some c) :: outs)).getLast?).getD last = ((c :: toReader outs).getLast?).getD c := by
              simp [toReader, List.getLast?_cons]
            rw [e]; exact k5
    · obtain ⟨t, got, r', e1, e2, e3⟩ := round_receives h l
      have hst : step s (.round l) = .ok (t, (got, none)) := by rw [step, e1]; rfl
      have hroom : q.q.length < q.cap := by
        have := hk1 l rfl r h.ring
        rw [hrel.getElements_eq] at this
        have := hrel.hcap
        omega
      rcases e3 with ⟨rfl, i, hi⟩ | ⟨p, c, rfl, hex, hput⟩
      · have hr' : r' = r := by
          rw [Ring.writerSlot, hrel.getRear_eq] at hi
          simp only [hroom, if_true, Outcome.bind_ok] at hi
          cases hi; rfl
        subst hr'
        obtain ⟨u, outs, rf, rest, k1, k2, k3, k4, k5⟩ := ih e2 hrel hps hops' (hk2 _ _ hst)
        refine ⟨u, ([], none) :: outs, rf, rest, by rw [runOps, hst]; simp only [Outcome.bind_ok, k1], k2, k3, ?_, ?_⟩
        · simpa [fromNet, toReader] using k4
        · simpa [toReader] using k5
      · obtain ⟨r'', g1, g2⟩ := step_rel r q (.forcePut c) hrel
        rw [hput] at g1
        simp only [Spec.step, Spec.makeRoom, hroom, if_true] at g1 g2
        cases g1
        have hps' : List.Forall₂ (Exact size) (ps ++ [p]) (q.q ++ [c]) := forall2_append hps (.cons hex .nil)
        obtain ⟨u, outs, rf, rest, k1, k2, k3, k4, k5⟩ := ih e2 g2 hps' hops' (hk2 _ _ hst)
        refine ⟨u, ([p], none) :: outs, rf, rest, by rw [runOps, hst]; simp only [Outcome.bind_ok, k1], k2, k3, ?_, ?_⟩
        · simpa [fromNet, toReader, List.append_assoc] using k4
        · simpa [toReader] using k5

/-- The sink waits for a frame it will never be given. -/
def Dead (s : St) : Prop := s.sink.frame = none ∧ s.sink.next = false ∧ ∀ r, s.ring = some r → r.rear = r.front

/-- **Recorded exception: reconnecting.** A stream disconnected while its sink was waiting for a frame is never
received again: whatever happens afterwards, reconnecting included, no reader gets a frame. -/
theorem never_resumes {s : St} (h : Sane s) (hd : Dead s) {op : Op} (hg : Good s op) : ∃ t o, step s op = .ok (t, o) ∧ o.2 = none ∧ Dead t ∧ Sane t := by
  obtain ⟨t, o, e1, e2⟩ := step_sane h hg
  refine ⟨t, o, e1, ?_, ?_, e2⟩
  · cases op with
    | take =>
      rw [step] at e1
      cases hr : s.ring with
      | none => rw [take, hr] at e1; cases e1; rfl
      | some r => simp only [take, hr, Ring.getFront, if_pos (hd.2.2 r hr), Outcome.map_ok] at e1; cases e1; rfl
    | round l => rw [step] at e1; cases hx : round s l with
      | ok x => rw [hx] at e1; cases e1; rfl
      | ub => rw [hx] at e1; cases e1
      | hang => rw [hx] at e1; cases e1
    | connect n size => cases e1; rfl
    | disconnect => cases e1; rfl
    | free g => cases e1; rfl
  · obtain ⟨d1, d2, d3⟩ := hd
    cases op with
    | take =>
      rw [step] at e1
      cases hr : s.ring with
      | none => rw [take, hr] at e1; cases e1; exact ⟨d1, d2, by rw [hr]; intro r h; cases h⟩
      | some r => simp only [take, hr, Ring.getFront, if_pos (d3 r hr), Outcome.map_ok] at e1; cases e1; exact ⟨d1, d2, d3⟩
    | round l =>
      rcases h with ⟨size, r, h⟩ | ⟨size, r, h⟩ | ⟨r, h⟩ | h
      · rcases h.state with ⟨hn, _⟩ | ⟨i, hf, _⟩
        · rw [hn] at d2; cases d2
        · rw [hf] at d1; cases d1
      · rcases h.state with hn | ⟨i, hf, _⟩
        · rw [hn] at d2; cases d2
        · rw [hf] at d1; cases d1
      · obtain ⟨t', ps, r1, i, a1, a2, a3⟩ := round_stuck h l
        rw [step, a1] at e1; cases e1
        refine ⟨a2.frame, a2.next, fun r' hr' => ?_⟩
        rw [a2.ring] at hr'; cases hr'
        have hre := h.wf.rear
        have he := d3 r h.ring
        have h2 := h.wf.two
        obtain ⟨r1', i', b1, _, _, _, _, _, b7⟩ := writerSlot_ok h.wf
        rw [a3] at b1; cases b1
        rw [b7 (by rw [succ_mod hre]; split <;> omega)]
        exact he
      · obtain ⟨t', ps, a1, a2, a3⟩ := round_off h l
        rw [step, a1] at e1; cases e1
        exact ⟨a2.frame, a3.trans d2, by rw [a2.ring]; intro r h; cases h⟩
    | connect n size =>
      cases e1
      rw [connect]
      cases hr : s.ring with
      | some r => exact ⟨d1, d2, d3⟩
      | none => exact ⟨d1, d2, by intro r h; cases h; rfl⟩
    | disconnect =>
      cases e1
      rw [disconnect]
      cases hr : s.ring with
      | none => exact ⟨d1, d2, d3⟩
      | some r => exact ⟨rfl, d2, by intro r h; cases h⟩
    | free g => cases e1; exact ⟨d1, d2, d3⟩

/-- Disconnecting while the sink waits for a frame leads there. -/
theorem disconnect_dead {size : Nat} {r : Ring Content} {s : St} (h : Steady size r s) (hn : s.sink.next = false) : Dead (disconnect s) := by
  rw [disconnect, h.ring]
  exact ⟨rfl, hn, by intro r h; cases h⟩

/-- A frame of the network for the runs below. -/
def hello : Pkt := ⟨[104, 105], 7, 5⟩

/-- Runs a history and shows what was taken and handed over. -/
def show' (ops : List Op) : Outcome (List (List Pkt × Option Content)) := (runOps step .init ops).map Prod.snd

/-- Connected between two fetches: the first frame already arrives as sent. -/
example : show' [.round [.packet ⟨[1], 0, 0⟩], .connect 3 4, .round [.task, .packet hello], .take] =
    .ok [([⟨[1], 0, 0⟩], none), ([], none), ([hello], none), ([], some ⟨[104, 105, 0, 0], 2, 7000005⟩)] := by decide +kernel

/-- Hypotheses of `received_in_order` hold there. -/
example : ∃ s, Reach s ∧ Steady 4 (Ring.create 3 fun _ => ⟨List.replicate 4 0, 0, 0⟩) s ∧
    FrameQueue.Rel (Ring.create 3 fun _ => (⟨List.replicate 4 0, 0, 0⟩ : Content)) (Spec.init 3 fun _ => ⟨List.replicate 4 0, 0, 0⟩) ∧
    KeepsUp s [.round [.task, .packet hello], .take] := by
  refine ⟨_, .step (op := .connect 3 4) (.step (op := .round [.packet ⟨[1], 0, 0⟩]) .init trivial rfl) (by decide : 2 ≤ 3) rfl, ?_, create_rel 3 (by decide) _, ?_⟩
  · refine connect_steady ⟨rfl, fun g h => (by cases h), rfl, .inl ⟨rfl, rfl⟩, fun g i h => (by cases h), fun ⟨g, i, h⟩ => (by cases h)⟩ rfl rfl (by decide)
  · refine ⟨fun l _ r hr => ?_, fun t o _ => ⟨fun l hl => (by cases hl), fun _ _ _ => trivial⟩⟩
    cases hr; decide

/-- Recorded exception, concretely: connected during the first fetch, as usual. The frame handed over has the
length and time of the one received, but not its bytes. -/
theorem first_frame_garbage : show' [.connect 3 4, .round [.packet hello], .take] =
    .ok [([], none), ([hello], none), ([], some ⟨[0, 0, 0, 0], 2, 7000005⟩)] := by decide +kernel

/-- Recorded exception: its length is not limited by the frame's buffer. -/
theorem first_frame_too_long : show' [.connect 3 1, .round [.packet hello], .take] =
    .ok [([], none), ([hello], none), ([], some ⟨[0], 2, 7000005⟩)] := by decide +kernel

/-- Recorded exception, concretely: disconnected while waiting, connected again, and nothing is received. -/
theorem reconnect_silent : show' [.connect 3 4, .round [.packet hello], .take, .round [.task], .disconnect, .connect 3 4,
      .round [.packet hello], .round [.task, .packet hello], .round [.task, .packet hello], .take] =
    .ok [([], none), ([hello], none), ([], some ⟨[0, 0, 0, 0], 2, 7000005⟩), ([], none), ([], none), ([], none),
      ([hello], none), ([hello], none), ([hello], none), ([], none)] := by decide +kernel

/-- Recorded exception: the queue freed while the library receives into it, it writes to freed memory. -/
theorem freed_under_fetch : show' [.connect 3 4, .round [.packet hello], .round [.task], .disconnect, .free 1, .round [.packet hello]] = .ub := by decide +kernel

end Lms.Recv
