import Verif.Recv.Model
import Verif.FrameQueue.Lemmas

/-! # Lemmas about the receiving sink -/

namespace Lms.Recv
open Lms.FrameQueue

/-- A queue with indices in range. -/
structure WF (r : Ring Content) : Prop where
  two : 2 ≤ r.max
  rear : r.rear < r.max
  front : r.front < r.max

theorem getRear_some {r : Ring Content} (h : WF r) {i : Nat} (hr : r.getRear = .ok (some i)) : i = r.rear ∧ (r.rear + 1) % r.max ≠ r.front := by
  have h2 := h.two
  unfold Ring.getRear at hr
  rw [if_neg (by omega)] at hr
  split at hr
  · cases hr
  · rename_i hne; cases hr; exact ⟨rfl, hne⟩

theorem getRear_of_ne {r : Ring Content} (h : WF r) (hne : (r.rear + 1) % r.max ≠ r.front) : r.getRear = .ok (some r.rear) := by
  have h2 := h.two
  rw [Ring.getRear, if_neg (by omega), if_neg hne]

theorem back_forth {n m : Nat} (hm : 2 ≤ m) (h : n < m) : ((n + (m - 1)) % m + 1) % m = n := by
  by_cases h0 : n = 0
  · subst h0
    rw [Nat.zero_add, Nat.mod_eq_of_lt (by omega : m - 1 < m), (by omega : m - 1 + 1 = m), Nat.mod_self]
  · rw [(by omega : n + (m - 1) = (n - 1) + m), Nat.add_mod_right, Nat.mod_eq_of_lt (by omega : n - 1 < m), (by omega : n - 1 + 1 = n), Nat.mod_eq_of_lt h]

theorem succ_mod {n m : Nat} (h : n < m) : (n + 1) % m = if n + 1 = m then 0 else n + 1 := by
  split
  · rename_i e; rw [e, Nat.mod_self]
  · exact Nat.mod_eq_of_lt (by omega)

/-- The frame demanded in a round: never missing, and free to be written. -/
theorem writerSlot_ok {r : Ring Content} (h : WF r) : ∃ r1 i, r.writerSlot true = .ok (r1, some i) ∧ WF r1 ∧ r1.getRear = .ok (some i) ∧
    r1.slots = r.slots ∧ r1.max = r.max ∧ r1.front = r.front ∧ ((r.rear + 1) % r.max ≠ r.front → r1 = r) := by
  have h2 := h.two
  have hr := h.rear
  have hf := h.front
  unfold Ring.writerSlot
  by_cases hne : (r.rear + 1) % r.max = r.front
  · have e1 : r.getRear = .ok none := by rw [Ring.getRear, if_neg (by omega), if_pos hne]
    rw [e1]
    simp only [Outcome.bind_ok, if_true]
    obtain ⟨r1, hr1⟩ : ∃ r1, r1 = { r with rear := (r.rear + (r.max - 1)) % r.max, lost := r.lost + 1 } := ⟨_, rfl⟩
    have ef : r.flush = .ok r1 := by rw [Ring.flush, if_neg (by omega), hr1]
    have w1 : WF r1 := by rw [hr1]; exact ⟨h2, Nat.mod_lt _ (by omega), hf⟩
    have hback : (r1.rear + 1) % r1.max = r.rear := by rw [hr1]; exact back_forth h2 hr
    have hnf : (r1.rear + 1) % r1.max ≠ r1.front := by
      rw [hback]
      have : r1.front = r.front := by rw [hr1]
      rw [this]
      rintro e
      rw [succ_mod hr] at hne
      split at hne <;> omega
    have e2 := getRear_of_ne w1 hnf
    have e3 : r.forceGetRear 3 = .ok (r1, r1.rear) := by
      rw [Ring.forceGetRear, e1]
      simp only [Outcome.bind_ok, ef]
      rw [Ring.forceGetRear, e2]
      rfl
    rw [e3]
    exact ⟨r1, r1.rear, rfl, w1, e2, by rw [hr1], by rw [hr1], by rw [hr1], fun h => absurd hne h⟩
  · rw [getRear_of_ne h hne]
    exact ⟨r, r.rear, rfl, h, getRear_of_ne h hne, rfl, rfl, rfl, fun _ => rfl⟩

theorem WF.write {r : Ring Content} (h : WF r) (i : Nat) (c : Content) : WF (r.write i c) := ⟨h.two, h.rear, h.front⟩

theorem getRear_write (r : Ring Content) (i : Nat) (c : Content) : (r.write i c).getRear = r.getRear := rfl

theorem write_write (r : Ring Content) (i : Nat) (c d : Content) : (r.write i c).write i d = r.write i d := by
  simp only [Ring.write]
  congr 1
  funext j
  split <;> rfl

theorem slots_write (r : Ring Content) (i : Nat) (c : Content) : (r.write i c).slots i = c := if_pos rfl

theorem write_self (r : Ring Content) (i : Nat) : r.write i (r.slots i) = r := by
  obtain ⟨m, sl, a, b, l⟩ := r
  simp only [Ring.write]
  congr 1
  funext j
  split
  · rename_i h; rw [h]
  · rfl

theorem addFrame_ok {r : Ring Content} (h : WF r) {i : Nat} (hr : r.getRear = .ok (some i)) :
    ∃ r3, r.addFrame = .ok r3 ∧ WF r3 ∧ r3.slots = r.slots := by
  have h2 := h.two
  obtain ⟨_, hne⟩ := getRear_some h hr
  rw [Ring.addFrame, if_neg (by omega), if_neg hne]
  exact ⟨_, rfl, ⟨h2, Nat.mod_lt _ (by omega), h.front⟩, rfl⟩

/-- What becomes of a frame's content when `p` is received into it. -/
def received (c : Content) (p : Pkt) : Content :=
  { buf := p.data.take c.buf.length ++ c.buf.drop (p.data.take c.buf.length).length, len := (p.data.take c.buf.length).length, pts := p.sec * 1000000 + p.usec }

/-- What becomes of it when `p` went to the dummy buffer. -/
def misplaced (c : Content) (p : Pkt) : Content := { c with len := min p.data.length DUMMY, pts := p.sec * 1000000 + p.usec }

/-- Within a round, before a frame has come: the sink has the demanded frame `i` of `r`. -/
structure One (i : Nat) (r : Ring Content) (s : St) : Prop where
  ring : s.ring = some r
  frame : s.sink.frame = some i
  next : s.sink.next = false
  marked : s.marked = []
  olds : s.gen ∉ s.olds

/-- Within a round, after a frame has come: `i` is marked, and the sink waits for a new one. -/
structure Two (i : Nat) (r : Ring Content) (s : St) : Prop where
  ring : s.ring = some r
  frame : s.sink.frame = some i
  next : s.sink.next = true
  marked : s.marked = [i]
  olds : s.gen ∉ s.olds
  pend : s.sink.pend = none
  task : s.sink.task = true

/-- The fetch under way is into the frame, or the task that asks for it is scheduled. -/
def Fetching (i : Nat) (s : St) : Prop := (s.sink.pend = none ∧ s.sink.task = true) ∨ (s.sink.pend = some (.slot s.gen i) ∧ s.sink.task = false)

theorem acts_two {i : Nat} {r : Ring Content} (l : List Act) : ∀ {s : St}, Two i r s → acts s l = .ok (s, []) := by
  induction l with
  | nil => intro s _; rfl
  | cons a l ih =>
    intro s h
    have : act s a = .ok (s, []) := by
      obtain ⟨sink, gen, ring, olds, marked⟩ := s
      obtain ⟨frame, next, pend, task⟩ := sink
      obtain ⟨h1, h2, h3, h4, h5, h6, h7⟩ := h
      simp only at h1 h2 h3 h4 h5 h6 h7
      subst h1 h2 h3 h4 h6 h7
      cases a with
      | task => rfl
      | packet p => rfl
    simp only [acts, this, Outcome.bind_ok, ih h, Outcome.map_ok, List.append_nil]

theorem packet_one {i : Nat} {r : Ring Content} {s : St} (h : One i r s) (hp : s.sink.pend = some (.slot s.gen i)) (p : Pkt) :
    ∃ t, act s (.packet p) = .ok (t, [p]) ∧ Two i (r.write i (received (r.slots i) p)) t ∧ t.gen = s.gen ∧ t.olds = s.olds := by
  obtain ⟨sink, gen, ring, olds, marked⟩ := s
  obtain ⟨frame, next, pend, task⟩ := sink
  obtain ⟨h1, h2, h3, h4, h5⟩ := h
  simp only at h1 h2 h3 h4 h5 hp
  subst h1 h2 h3 h4 hp
  refine ⟨⟨⟨some i, true, none, true⟩, gen, some (r.write i (received (r.slots i) p)), olds, [i]⟩, ?_, ⟨rfl, rfl, rfl, rfl, h5, rfl, rfl⟩, rfl, rfl⟩
  simp only [act, packet, if_neg h5, if_true, after, Outcome.map_ok, write_write, slots_write]
  rfl

theorem packet_dummy {i : Nat} {r : Ring Content} {s : St} (h : One i r s) (hp : s.sink.pend = some .dummy) (p : Pkt) :
    ∃ t, act s (.packet p) = .ok (t, [p]) ∧ Two i (r.write i (misplaced (r.slots i) p)) t ∧ t.gen = s.gen ∧ t.olds = s.olds := by
  obtain ⟨sink, gen, ring, olds, marked⟩ := s
  obtain ⟨frame, next, pend, task⟩ := sink
  obtain ⟨h1, h2, h3, h4, h5⟩ := h
  simp only at h1 h2 h3 h4 h5 hp
  subst h1 h2 h3 h4 hp
  refine ⟨⟨⟨some i, true, none, true⟩, gen, some (r.write i (misplaced (r.slots i) p)), olds, [i]⟩, ?_, ⟨rfl, rfl, rfl, rfl, h5, rfl, rfl⟩, rfl, rfl⟩
  simp only [act, packet, after, Outcome.map_ok, if_true]
  rfl

/-- A round's actions while the fetch is into the frame. -/
theorem acts_one {i : Nat} {r : Ring Content} (l : List Act) : ∀ {s : St}, One i r s → Fetching i s →
    ∃ t ps, acts s l = .ok (t, ps) ∧ t.gen = s.gen ∧ t.olds = s.olds ∧
      ((ps = [] ∧ One i r t ∧ Fetching i t) ∨ ∃ p, ps = [p] ∧ Two i (r.write i (received (r.slots i) p)) t) := by
  induction l with
  | nil => intro s h hf; exact ⟨s, [], rfl, rfl, rfl, .inl ⟨rfl, h, hf⟩⟩
  | cons a l ih =>
    intro s h hf
    cases a with
    | task =>
      have : ∃ t, act s .task = .ok (t, []) ∧ One i r t ∧ Fetching i t ∧ t.gen = s.gen ∧ t.olds = s.olds := by
        rcases hf with ⟨hp, ht⟩ | ⟨hp, ht⟩
        · obtain ⟨sink, gen, ring, olds, marked⟩ := s
          obtain ⟨frame, next, pend, task⟩ := sink
          obtain ⟨h1, h2, h3, h4, h5⟩ := h
          simp only at h1 h2 h3 h4 h5 hp ht
          subst h1 h2 h3 h4 hp ht
          exact ⟨_, rfl, ⟨rfl, rfl, rfl, rfl, h5⟩, .inr ⟨rfl, rfl⟩, rfl, rfl⟩
        · exact ⟨s, by rw [act, ht]; rfl, h, .inr ⟨hp, ht⟩, rfl, rfl⟩
      obtain ⟨t, e1, e2, e3, e4, e5⟩ := this
      obtain ⟨u, ps, g1, g2, g3, g4⟩ := ih e2 e3
      refine ⟨u, ps, ?_, g2.trans e4, g3.trans e5, g4⟩
      simp only [acts, e1, Outcome.bind_ok, g1, Outcome.map_ok, List.nil_append]
    | packet p =>
      rcases hf with ⟨hp, ht⟩ | ⟨hp, ht⟩
      · have : act s (.packet p) = .ok (s, []) := by rw [act, packet, hp]; rfl
        obtain ⟨u, ps, g1, g2, g3, g4⟩ := ih h (.inl ⟨hp, ht⟩)
        refine ⟨u, ps, ?_, g2, g3, g4⟩
        simp only [acts, this, Outcome.bind_ok, g1, Outcome.map_ok, List.nil_append]
      · obtain ⟨t, e1, e2, e3, e4⟩ := packet_one h hp p
        refine ⟨t, [p], ?_, e3, e4, .inr ⟨p, rfl, e2⟩⟩
        simp only [acts, e1, Outcome.bind_ok, acts_two l e2, Outcome.map_ok, List.append_nil]

/-- A round's actions while the fetch is still into the dummy buffer. -/
theorem acts_dummy {i : Nat} {r : Ring Content} (l : List Act) : ∀ {s : St}, One i r s → s.sink.pend = some .dummy → s.sink.task = false →
    ∃ t ps, acts s l = .ok (t, ps) ∧ t.gen = s.gen ∧ t.olds = s.olds ∧
      ((ps = [] ∧ t = s) ∨ ∃ p, ps = [p] ∧ Two i (r.write i (misplaced (r.slots i) p)) t) := by
  induction l with
  | nil => intro s _ _ _; exact ⟨s, [], rfl, rfl, rfl, .inl ⟨rfl, rfl⟩⟩
  | cons a l ih =>
    intro s h hp ht
    cases a with
    | task =>
      have : act s .task = .ok (s, []) := by rw [act, ht]; rfl
      obtain ⟨u, ps, g1, g2, g3, g4⟩ := ih h hp ht
      refine ⟨u, ps, ?_, g2, g3, g4⟩
      simp only [acts, this, Outcome.bind_ok, g1, Outcome.map_ok, List.nil_append]
    | packet p =>
      obtain ⟨t, e1, e2, e3, e4⟩ := packet_dummy h hp p
      refine ⟨t, [p], ?_, e3, e4, .inr ⟨p, rfl, e2⟩⟩
      simp only [acts, e1, Outcome.bind_ok, acts_two l e2, Outcome.map_ok, List.append_nil]

/-- The sink has no frame: nothing it receives is kept. `ok` says the memory it fetches into is still there. -/
structure Idle (s : St) : Prop where
  frame : s.sink.frame = none
  excl : (s.sink.pend = none ∧ s.sink.task = true) ∨ (s.sink.pend ≠ none ∧ s.sink.task = false)
  mem : ∀ g i, s.sink.pend = some (.slot g i) → g ∈ s.olds
  marked : s.marked = []

theorem act_idle {s : St} (h : Idle s) (a : Act) : ∃ t ps, act s a = .ok (t, ps) ∧ Idle t ∧ t.ring = s.ring ∧ t.gen = s.gen ∧ t.olds = s.olds ∧
    t.sink.next = s.sink.next ∧ ((∀ g i, s.sink.pend ≠ some (.slot g i)) → ∀ g i, t.sink.pend ≠ some (.slot g i)) := by
  obtain ⟨sink, gen, ring, olds, marked⟩ := s
  obtain ⟨frame, next, pend, task⟩ := sink
  obtain ⟨h1, h2, h3, h4⟩ := h
  simp only at h1 h2 h3 h4
  subst h1 h4
  cases a with
  | task =>
    rcases h2 with ⟨rfl, rfl⟩ | ⟨hp, rfl⟩
    · exact ⟨_, _, rfl, ⟨rfl, .inr ⟨by simp, rfl⟩, fun g i h => (by cases h), rfl⟩, rfl, rfl, rfl, rfl, fun _ g i h => (by cases h)⟩
    · exact ⟨_, _, rfl, ⟨rfl, .inr ⟨hp, rfl⟩, h3, rfl⟩, rfl, rfl, rfl, rfl, fun h => h⟩
  | packet p =>
    rcases h2 with ⟨rfl, rfl⟩ | ⟨hp, rfl⟩
    · exact ⟨_, _, rfl, ⟨rfl, .inl ⟨rfl, rfl⟩, h3, rfl⟩, rfl, rfl, rfl, rfl, fun h => h⟩
    · cases pend with
      | none => exact absurd rfl hp
      | some d =>
        cases d with
        | dummy => exact ⟨_, _, rfl, ⟨rfl, .inl ⟨rfl, rfl⟩, fun g i h => (by cases h), rfl⟩, rfl, rfl, rfl, rfl, fun _ g i h => (by cases h)⟩
        | slot g i =>
          refine ⟨⟨⟨none, next, none, true⟩, gen, ring, olds, []⟩, [p], by simp only [act, packet, if_pos (h3 g i rfl), after, Outcome.map_ok, if_true], ⟨rfl, .inl ⟨rfl, rfl⟩, fun g i h => (by cases h), rfl⟩, rfl, rfl, rfl, rfl, fun _ g i h => (by cases h)⟩

theorem acts_idle (l : List Act) : ∀ {s : St}, Idle s → ∃ t ps, acts s l = .ok (t, ps) ∧ Idle t ∧ t.ring = s.ring ∧ t.gen = s.gen ∧ t.olds = s.olds ∧
    t.sink.next = s.sink.next ∧ ((∀ g i, s.sink.pend ≠ some (.slot g i)) → ∀ g i, t.sink.pend ≠ some (.slot g i)) := by
  induction l with
  | nil => intro s h; exact ⟨s, [], rfl, h, rfl, rfl, rfl, rfl, fun h => h⟩
  | cons a l ih =>
    intro s h
    obtain ⟨t, ps, e1, e2, e3, e4, e5, e6, e7⟩ := act_idle h a
    obtain ⟨u, qs, g1, g2, g3, g4, g5, g6, g7⟩ := ih e2
    refine ⟨u, ps ++ qs, ?_, g2, g3.trans e3, g4.trans e4, g5.trans e5, g6.trans e6, fun h => g7 (e7 h)⟩
    simp only [acts, e1, Outcome.bind_ok, g1, Outcome.map_ok]

end Lms.Recv
