import Verif.Relay.Props

/-!
# C83: from the network to the packetiser

`sent_on` in the queue's observable counts, its instance for whole units, that the rounds do not fail, that the model is that of
the two filters, and the recorded exceptions.
-/

namespace Lms.Relay
open Lms.FrameQueue
open Lms.Sources (Kind Src Act Answer History answers Spaced Valid content Right)

/-- An empty queue in the queue's own terms. -/
theorem empty_rel {r : Ring Recv.Content} (hw : Recv.WF r) (he : r.rear = r.front) :
    FrameQueue.Rel r ⟨r.max - 1, [], r.slots ((r.front + (r.max - 1)) % r.max), r.lost⟩ := by
  have h2 := hw.two
  have h3 := hw.front
  exact ⟨h2, (by show r.max - 1 + 1 = _; omega), h3, (by show 0 < _; omega), (by rw [he]; exact (Nat.mod_eq_of_lt h3).symm), (by intro i x h; cases h), rfl, rfl⟩

/-- **C83**, from an empty queue on, in what can be seen: `done` has been given to the packetiser in order, `todo` waits in the
queue, the rest has been counted as lost; with none lost, that is everything. -/
theorem relayed {k : Kind} {size R : Nat} {ops : List Op} {s t : St} {r : Ring Recv.Content} {outs : List (List Recv.Pkt × History)}
    (hs : Recv.Steady size r s.recv) (he : r.rear = r.front) (hi : Idle R s.src) (ha : ∀ op ∈ ops, OpAsks R op)
    (hf : ∀ p ∈ fromNet outs, Fits k size p) (e : runOps (step k) s ops = .ok (t, outs)) (hsp : k = .plain ∨ Spaced false (outs.flatMap (·.2))) :
    ∃ done todo r', t.recv.ring = some r' ∧ r'.getElements = todo.length ∧ (done ++ todo).Sublist (fromNet outs) ∧
      List.Forall₂ (SentOn k size R) done (given outs) ∧ done.length + todo.length + r'.lost = (fromNet outs).length + r.lost ∧
      (r'.lost = r.lost → fromNet outs = done ++ todo) := by
  obtain ⟨d, todo, r', q', a1, a2, a3, a4, a5, a6, -⟩ := sent_on (ps := []) ops hs (empty_rel hs.wf he) .nil hi ha (by simpa using hf) e hsp
  simp only [List.nil_append] at a1 a2
  rw [← a5.hlost] at a2
  refine ⟨d, todo, r', a6.ring, by rw [a5.getElements_eq, a4.length_eq], a1, a3, by rw [List.length_append] at a2; exact a2, fun hl => ?_⟩
  exact (a1.eq_of_length (by omega)).symm

/-- **C83** for H.264 and H.265: a unit with room in the frames and in the packetiser's buffer is sent on byte for byte, at its time. -/
theorem unit_sent {size R : Nat} {u : Bytes} {sec usec : Int} {a : Answer} (h : SentOn .h26x size R (arriving u sec usec) a) (h1 : u.length + 4 ≤ size)
    (h2 : u.length ≤ R) : a.bytes = u ∧ a.truncated = 0 ∧ a.sec * 1000000 + a.usec = 1000000 * sec + usec := by
  obtain ⟨⟨room, g1, g2⟩, g3, g4⟩ := h
  have e : payload .h26x ((arriving u sec usec).data.take size) = u := by
    rw [List.take_of_length_le (by show (_ ++ u).length ≤ _; rw [List.length_append]; show 4 + _ ≤ _; omega)]
    rfl
  rw [e] at g2 g3
  rw [List.take_of_length_le (by omega)] at g2
  refine ⟨g2, ?_, g4⟩
  rw [g2] at g3
  omega

/-- Other codecs: a frame that fits is sent on as it is. -/
theorem frame_sent {size R : Nat} {p : Recv.Pkt} {a : Answer} (h : SentOn .plain size R p a) (h1 : p.data.length ≤ size) (h2 : p.data.length ≤ R) :
    a.bytes = p.data ∧ a.truncated = 0 ∧ a.sec * 1000000 + a.usec = 1000000 * p.sec + p.usec := by
  obtain ⟨⟨room, g1, g2⟩, g3, g4⟩ := h
  have e : payload .plain (p.data.take size) = p.data := by rw [List.take_of_length_le h1]; rfl
  rw [e] at g2 g3
  rw [List.take_of_length_le (by omega)] at g2
  refine ⟨g2, ?_, g4⟩
  rw [g2] at g3
  omega

/-- What the parser delivers of a unit is what the queue sink gets of `arriving`. -/
theorem arriving_parsed (e : Bytes) (sz max : Nat) (u : Bytes) (sec usec : Int) (h4 : 4 ≤ max) (hm : max < 2 ^ 32) :
    ∃ tr, Sdp.get { todo := [], extra := e, frameSize := sz } max u =
      .ok ({ todo := [], extra := e, frameSize := ((arriving u sec usec).data.take max).length },
        { written := (arriving u sec usec).data.take max, size := ((arriving u sec usec).data.take max).length, truncated := tr }) := by
  have e1 : (arriving u sec usec).data.take max = Sdp.startCode ++ u.take (max - 4) := by
    show (Sdp.startCode ++ u).take max = _
    rw [List.take_append]
    congr 1
    exact List.take_of_length_le h4
  have e2 : ((arriving u sec usec).data.take max).length = 4 + min u.length (max - 4) := by
    rw [e1, List.length_append, List.length_take, Nat.min_comm]; rfl
  exact ⟨_, by rw [Sdp.unit_prefixed e sz max u h4 hm, e2, e1]⟩

theorem arriving_fits (u : Bytes) (sec usec : Int) {size : Nat} (h : 4 ≤ size) (k : Kind) : Fits k size (arriving u sec usec) :=
  fun _ => ⟨by show 4 ≤ ([0, 0, 0, 1] ++ u : Bytes).length; rw [List.length_append]; show 4 ≤ 4 + _; omega, h⟩

/-! ## The rounds come to an end -/

/-- A round of the receiver always does. -/
theorem receive_ok (k : Kind) {size : Nat} {r : Ring Recv.Content} {s : St} (hs : Recv.Steady size r s.recv) (l : List Recv.Act) :
    ∃ t o, step k s (.receive l) = .ok (t, o) := by
  obtain ⟨u, got, -, e1, -⟩ := Recv.round_receives hs l
  exact ⟨_, _, by rw [step, e1]; rfl⟩

/-- With a request outstanding, the frame at the front of the queue is given to the packetiser in the step in which the trigger fires. -/
theorem transmit_ok {k : Kind} {size R room : Nat} {r : Ring Recv.Content} {q : Spec Recv.Content} {p : Recv.Pkt} {ps : List Recv.Pkt} {s : St}
    (hs : Recv.Steady size r s.recv) (hrel : FrameQueue.Rel r q) (hps : List.Forall₂ (Recv.Exact size) (p :: ps) q.q) (hi : Idle R s.src)
    (hw : s.src.waiting = some room) (hf : Fits k size p) (sched : List (List Act)) :
    ∃ t h a, step k s (.transmit ([.trigger] :: sched)) = .ok (t, ([], h)) ∧ answers h = [a] ∧ SentOn k size R p a ∧ Idle R t.src := by
  obtain ⟨u, o, r', e1, e2, e3, e4, e5, e6, e7, e8⟩ := Recv.take_ok hs.ring hs.wf
  obtain ⟨r'', g1, g2⟩ := step_rel r q .take hrel
  rw [e7] at g1
  obtain ⟨cap, qq, last, lost⟩ := q
  cases hps with
  | @cons _ c _ qq hp hps =>
    simp only [Spec.step] at g1
    cases g1
    have hv : Valid k (toFrame c) := exact_valid hp hf
    have hinv : Sources.Inv k { s.src with frame := some (toFrame c) } :=
      ⟨(by intro e; exact absurd e (by show ¬ s.src.processed = true; rw [hi.processed]; decide)), (by intro f e; cases e; exact hv)⟩
    obtain ⟨s1, o1, d1, -, d2⟩ := Sources.step_cases k { s.src with frame := some (toFrame c) } .trigger hinv trivial
    simp only [hw, hi.processed, Bool.false_eq_true, and_false, if_false] at d2
    obtain ⟨a, hr, rfl, rfl⟩ := d2
    refine ⟨⟨u, { s.src with frame := none, processed := false, waiting := none }⟩,
      [(.set (toFrame c), .set true), (.trigger, .answer (some a)), (.got, .got true)], a, ?_, rfl, exact_sent hp (hi.room _ hw) hr,
      ⟨rfl, rfl, hi.stop, by intro _ e; cases e⟩⟩
    rw [step, e1, Outcome.bind_ok]
    simp only [Option.map_some, transmit]
    rw [show Sources.step k s.src (.set (toFrame c)) = .ok ({ s.src with frame := some (toFrame c) }, .set true) from if_pos hi.frame, Outcome.bind_ok,
        if_pos rfl]
    simp only [serve, single, Act.op]
    rw [d1]
    simp only [Outcome.bind_ok, Outcome.map_ok]
    rw [show Sources.step k { s.src with frame := some (toFrame c), processed := true, waiting := none } .got =
      .ok ({ s.src with frame := none, processed := false, waiting := none }, .got true) from rfl]
    simp only [Outcome.bind_ok, if_true, Outcome.map_ok]
    rfl

/-! ## The transmitter's side is that of `Sources` -/

theorem single_agrees (k : Kind) : ∀ (l : List Act) (s : Src), Sources.single (l.map fun a => (0, a)) [(0, k, s)] = (single k s l).map fun x => [(0, k, x.1)] := by
  intro l
  induction l with
  | nil => intro s; rfl
  | cons a l ih =>
    intro s
    show (Sources.act 0 a [(0, k, s)]).bind (Sources.single (l.map fun a => (0, a))) = _
    rw [single, Sources.act, if_pos rfl]
    cases Sources.step k s a.op with
    | ub => rfl
    | hang => rfl
    | ok x =>
      simp only [Outcome.bind_ok]
      rw [ih]
      cases single k x.1 l <;> rfl

theorem serve_agrees (k : Kind) : ∀ (sched : List (List Act)) (s : Src),
    Sources.loop (sched.map fun l => l.map fun a => (0, a)) [(0, k, s)] 1 = (serve k sched s).map fun x => [(0, k, x.1)] := by
  intro sched
  induction sched with
  | nil => intro s; rfl
  | cons a l ih =>
    intro s
    rw [List.map_cons, Sources.loop, if_neg (by decide), single_agrees, serve]
    cases single k s a with
    | ub => rfl
    | hang => rfl
    | ok x =>
      simp only [Outcome.map_ok, Outcome.bind_ok]
      obtain ⟨x, h⟩ := x
      simp only [Sources.collect, Sources.step]
      by_cases c : x.processed = true ∨ x.stop = true
      · simp only [if_pos c]
        by_cases d : x.frame ≠ none
        · simp only [if_pos d, Outcome.bind_ok, if_true]
          rw [Sources.loop.eq_def]
          rfl
        · simp only [if_neg d, Outcome.bind_ok]
          rw [if_neg (by intro z; cases z)]
          show Sources.loop _ _ 1 = _
          rw [ih]
          cases serve k l { x with processed := false } <;> rfl
      · simp only [if_neg c, Outcome.bind_ok]
        rw [if_neg (by intro z; cases z)]
        show Sources.loop _ _ 1 = _
        rw [ih]
        cases serve k l x <;> rfl

/-- `transmit` is the transmitter's round of `Sources` (C41) for one reader. -/
theorem transmit_agrees (k : Kind) (new : Option Sources.Frame) (sched : List (List Act)) (s : Src) :
    ((Sources.processFrames (new.toList.map fun f => (0, f)) (sched.map fun l => l.map fun a => (0, a)) [(0, k, s)]).map fun x => x.1) =
      (transmit k new sched s).map fun x => [(0, k, x.1)] := by
  have hq : Outcome.map (fun x : Sources.Sources × Bool => x.1) (match sched.map (fun l : List Act => l.map fun a => ((0 : Nat), a)) with
      | [] => Outcome.hang
      | acts :: _ => (Sources.single acts [(0, k, s)]).bind fun l' => Outcome.ok (l', false)) =
      Outcome.map (fun x : Src × History => [(0, k, x.1)]) (match sched with | [] => Outcome.hang | a :: _ => single k s a) := by
    cases sched with
    | nil => rfl
    | cons a l =>
      simp only [List.map_cons]
      rw [single_agrees]
      cases single k s a <;> rfl
  cases new with
  | none => exact hq
  | some f =>
    by_cases hf : s.frame = none
    · have ho : Sources.offer [(0, f)] [(0, k, s)] = ([(0, k, { s with frame := some f })], 1) := by
        simp [Sources.offer, hf]
      simp only [Option.toList_some, List.map_cons, List.map_nil, Sources.processFrames, ho, transmit]
      rw [if_neg (by decide), show Sources.step k s (.set f) = .ok ({ s with frame := some f }, .set true) from if_pos hf, Outcome.bind_ok, if_pos rfl]
      show ((Sources.loop _ _ 1).bind _).map _ = _
      rw [serve_agrees]
      cases serve k sched { s with frame := some f } <;> rfl
    · have ho : Sources.offer [(0, f)] [(0, k, s)] = ([(0, k, s)], 0) := by
        simp [Sources.offer, hf]
      simp only [Option.toList_some, List.map_cons, List.map_nil, Sources.processFrames, ho, transmit]
      rw [if_pos trivial, show Sources.step k s (.set f) = .ok (s, .set false) from if_neg hf, Outcome.bind_ok]
      rw [if_neg (by intro z; cases z)]
      exact hq

/-! ## Concretely -/

/-- Connected with a queue of three frames of eight bytes, nothing under way; the packetiser has asked for a frame. -/
def start : St where
  recv := { sink := { frame := none, next := true, pend := none, task := true }, gen := 1, ring := some (Ring.create 3 fun _ => ⟨List.replicate 8 0, 0, 0⟩), olds := [], marked := [] }
  src := { waiting := some 100, stop := false }

theorem start_steady : Recv.Steady 8 (Ring.create 3 fun _ => ⟨List.replicate 8 0, 0, 0⟩) start.recv :=
  ⟨rfl, ⟨by decide, by decide, by decide⟩, fun _ => rfl, fun g h => (by cases h), .inl ⟨rfl, rfl, rfl⟩⟩

theorem start_idle : Idle 100 start.src := ⟨rfl, rfl, rfl, fun r h => by cases h; exact Nat.le_refl _⟩

/-- What the packetiser was given, and how many units were lost and wait. -/
def seen (k : Kind) (ops : List Op) : Outcome (List Answer × Option (Nat × Nat)) :=
  (runOps (step k) start ops).map fun x => (given x.2, x.1.recv.ring.map fun r => (r.lost, r.getElements))

def two : List Op := [.receive [.task, .packet (arriving [65, 66, 67] 5 7)], .transmit [[.trigger], []], .receive [.task, .packet (arriving [68, 69] 6 8)],
  .transmit [[], [.ask 100]]]

/-- Two units sent on. -/
example : seen .h26x two = .ok ([⟨[65, 66, 67], 0, 5, 7⟩, ⟨[68, 69], 0, 6, 8⟩], some (0, 0)) := by decide +kernel

/-- `relayed` applies to that run. -/
example : ∃ t outs, runOps (step .h26x) start two = .ok (t, outs) ∧ fromNet outs = [arriving [65, 66, 67] 5 7, arriving [68, 69] 6 8] ∧
    Spaced false (outs.flatMap (·.2)) ∧ ∀ op ∈ two, OpAsks 100 op := by
  refine ⟨_, _, rfl, rfl, ?_, ?_⟩
  · simp [Spaced]
  · intro op h
    simp only [two, List.mem_cons, List.not_mem_nil, or_false] at h
    rcases h with rfl | rfl | rfl | rfl <;> simp [OpAsks, Asks]

/-- Three units arriving while the transmitter does not run: the queue holds two, the newest gives way to the next. -/
example : seen .plain [.receive [.task, .packet ⟨[1], 0, 1⟩], .receive [.task, .packet ⟨[2], 0, 2⟩], .receive [.task, .packet ⟨[3], 0, 3⟩],
    .transmit [[.trigger]], .transmit [[.ask 9]], .transmit [[]]] = .ok ([⟨[1], 0, 0, 1⟩, ⟨[3], 0, 0, 3⟩], some (1, 0)) := by decide +kernel

/-- Recorded exception: a packetiser that stops leaves the unit of that round unsent, and uncounted. -/
theorem stopped_unsent : seen .h26x [.receive [.task, .packet (arriving [65] 5 7)], .transmit [[.stop]]] = .ok ([], some (0, 0)) := by decide +kernel

/-- Recorded exception: asking again before the round is over, a packetiser of H.264 or H.265 is given the same unit twice … -/
theorem asked_twice : seen .h26x [.receive [.task, .packet (arriving [65] 5 7)], .transmit [[.trigger, .ask 100]]] =
    .ok ([⟨[65], 0, 5, 7⟩, ⟨[65], 0, 5, 7⟩], some (0, 0)) := by decide +kernel

/-- … one of another codec is not. -/
example : seen .plain [.receive [.task, .packet ⟨[65], 5, 7⟩], .transmit [[.trigger, .ask 100]]] = .ok ([⟨[65], 0, 5, 7⟩], some (0, 0)) := by decide +kernel

/-- Recorded exception: a unit longer than the frames of the queue is cut there without the packetiser being told. -/
theorem cut_untold : seen .h26x [.receive [.task, .packet (arriving [1, 2, 3, 4, 5, 6] 5 7)], .transmit [[.trigger]]] =
    .ok ([⟨[1, 2, 3, 4], 0, 5, 7⟩], some (0, 0)) := by decide +kernel

end Lms.Relay
