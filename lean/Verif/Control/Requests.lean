import Verif.Control.Props
import Verif.JsonStream.Cut

/-!
# Requests with several events, the report, and the server loop
-/

namespace Lms.Control

open Lms Lms.Json

/-! ## One result for each event -/

/-- What one event adds to the reply: a verdict, or the two members of a report. -/
def Part (p : Reply) : Prop :=
  IsDone p ∨ IsFailed p ∨ ∃ a b, p = [("filters".toList, .arr a), ("paths".toList, .arr b)]

theorem tells_part {s s' : C} {o : Outcome (Pipeline.S × Bool)} {r : Reply} (h : Tells s o (.ok (s', r))) : IsDone r ∨ IsFailed r := by
  unfold Tells at h
  split at h
  · rename_i e; cases e; exact Or.inl h.2
  · rename_i e; cases e; exact Or.inr h.2
  · rename_i e; cases e
  · rename_i e; cases e
  · exact h.elim

/-- An event that asks for no report is answered by one verdict. -/
theorem verdict {s s' : C} {env : Env} {e : Node} {r : Reply} (h : processEvent s env e = .ok (s', r)) (hq : read e ≠ .getState) :
    IsDone r ∨ IsFailed r := by
  have ha := event_answered s env e
  rw [h] at ha
  cases hr : read e with
  | getState => exact absurd hr hq
  | fatal => rw [hr] at ha; simp [Answers] at ha
  | malformed =>
    rw [hr] at ha; obtain ⟨r', h1, h2⟩ := ha
    simp only [R.ok.injEq, Prod.mk.injEq] at h1
    rw [h1.2]; exact Or.inr h2
  | toFilter id d =>
    rw [hr] at ha
    cases ho : Pipeline.lookup s.pipe.filters id with
    | none =>
      obtain ⟨r', h1, h2⟩ := ha.2 ho
      simp only [R.ok.injEq, Prod.mk.injEq] at h1
      rw [h1.2]; exact Or.inr h2
    | some o =>
      obtain ⟨r', h1, h2⟩ := ha.1 o ho
      simp only [R.ok.injEq, Prod.mk.injEq] at h1
      rw [h1.2]; exact Or.inl h2
  | createFilter id t => rw [hr] at ha; exact tells_part ha
  | createPath id org dst w rd ms =>
    rw [hr] at ha
    rcases ha with ⟨_, ha⟩ | ⟨_, ha⟩
    · exact tells_part ha
    · exact tells_part ha
  | removePath id => rw [hr] at ha; exact tells_part ha
  | removeFilter id => rw [hr] at ha; exact tells_part ha
  | stop => rw [hr] at ha; exact tells_part ha

theorem part {s s' : C} {env : Env} {e : Node} {r : Reply} (h : processEvent s env e = .ok (s', r)) : Part r := by
  by_cases hq : read e = .getState
  · have ha := event_answered s env e
    rw [h, hq] at ha
    obtain ⟨_, a, b, hab⟩ := getState_reply (show getState s env = .ok (s', r) from Eq.symm ha)
    exact Or.inr (Or.inr ⟨a, b, hab⟩)
  · rcases verdict h hq with h | h
    · exact Or.inl h
    · exact Or.inr (Or.inl h)

theorem events_cons {s s' : C} {e : Node × Env} {es : List (Node × Env)} {r : Reply} (h : events s (e :: es) = .ok (s', r)) :
    ∃ s1 p r2, processEvent s e.2 e.1 = .ok (s1, p) ∧ events s1 es = .ok (s', r2) ∧ r = p ++ r2 := by
  obtain ⟨e, env⟩ := e
  rw [events] at h
  cases h1 : processEvent s env e with
  | dies => rw [h1] at h; simp [R.bind] at h
  | ub => rw [h1] at h; simp [R.bind] at h
  | ok a =>
    rw [h1] at h
    simp only [R.bind] at h
    cases h2 : events a.1 es with
    | dies => rw [h2] at h; simp at h
    | ub => rw [h2] at h; simp at h
    | ok b =>
      rw [h2] at h
      simp only [R.ok.injEq, Prod.mk.injEq] at h
      exact ⟨a.1, a.2, b.2, rfl, by rw [h2, ← h.1], h.2.symm⟩

/-- **C76.**  The results come in the order of the events: what an event adds to the reply is what it was answered after the events
before it, and the events after it go on from there. -/
theorem results_in_order : ∀ (es : List (Node × Env)) (s s' : C) (r : Reply), events s es = .ok (s', r) →
    ∀ (i : Nat) (e : Node) (env : Env), es[i]? = some (e, env) →
      ∃ s1 s2 r1 p r2, events s (es.take i) = .ok (s1, r1) ∧ processEvent s1 env e = .ok (s2, p) ∧
        events s2 (es.drop (i + 1)) = .ok (s', r2) ∧ r = r1 ++ p ++ r2 ∧ Part p := by
  intro es
  induction es with
  | nil => intro s s' r _ i e env hi; simp at hi
  | cons x es ih =>
    intro s s' r h i e env hi
    obtain ⟨s1, p, r2, h1, h2, h3⟩ := events_cons h
    cases i with
    | zero =>
      simp only [List.getElem?_cons_zero, Option.some.injEq] at hi
      subst hi
      exact ⟨s, s1, [], p, r2, by simp [events], h1, by simpa using h2, by simp [h3], part h1⟩
    | succ i =>
      simp only [List.getElem?_cons_succ] at hi
      obtain ⟨t1, t2, q1, q, q2, g1, g2, g3, g4, g5⟩ := ih s1 s' r2 h2 i e env hi
      refine ⟨t1, t2, p ++ q1, q, q2, ?_, g2, by simpa using g3, by rw [h3, g4]; simp, g5⟩
      obtain ⟨x, xe⟩ := x
      simp [events, h1, R.bind, g1]

/-- **C76.**  A request without reports is answered with exactly one verdict for each event. -/
theorem one_verdict_each : ∀ (es : List (Node × Env)) (s s' : C) (r : Reply), events s es = .ok (s', r) →
    (∀ e ∈ es, read e.1 ≠ .getState) →
    r.length = es.length ∧ ∀ v ∈ r, v.1 = "error".toList ∧ ∃ t, v.2 = .val .null [] ∨ v.2 = .val .str t := by
  intro es
  induction es with
  | nil =>
    intro s s' r h _
    simp only [events, R.ok.injEq, Prod.mk.injEq] at h
    rw [← h.2]; simp
  | cons x es ih =>
    intro s s' r h hq
    obtain ⟨s1, p, r2, h1, h2, h3⟩ := events_cons h
    obtain ⟨g1, g2⟩ := ih s1 s' r2 h2 (fun e he => hq e (List.mem_cons_of_mem _ he))
    rcases verdict h1 (hq x (List.mem_cons_self ..)) with hv | ⟨t, hv⟩
    · unfold IsDone at hv
      subst h3 hv
      refine ⟨by simp [g1], ?_⟩
      intro v hm
      simp only [List.singleton_append, List.mem_cons] at hm
      rcases hm with rfl | hm
      · exact ⟨rfl, [], Or.inl rfl⟩
      · exact g2 v hm
    · subst h3 hv
      refine ⟨by simp [g1], ?_⟩
      intro v hm
      simp only [List.singleton_append, List.mem_cons] at hm
      rcases hm with rfl | hm
      · exact ⟨rfl, t, Or.inr rfl⟩
      · exact g2 v hm

/-- **C76 (recorded exception).**  All verdicts have the same name: a client that asks the reply for it sees the one of the first
event, whatever became of the others. -/
theorem only_first_verdict_seen {s s' : C} {e : Node} {env : Env} {es : List (Node × Env)} {r : Reply}
    (h : events s ((e, env) :: es) = .ok (s', r)) (hq : read e ≠ .getState) :
    ∃ s1 v, processEvent s env e = .ok (s1, [("error".toList, v)]) ∧ member "error" (.obj r) = some v := by
  obtain ⟨s1, p, r2, h1, _, h3⟩ := events_cons h
  rcases verdict h1 hq with hv | ⟨t, hv⟩
  · unfold IsDone at hv
    subst h3 hv
    exact ⟨s1, _, h1, by simp only [member, List.singleton_append, List.lookup, BEq.rfl]⟩
  · subst h3 hv
    exact ⟨s1, _, h1, by simp only [member, List.singleton_append, List.lookup, BEq.rfl]⟩

/-- **C76 (recorded exception).**  An event the code cannot read ends the process wherever it stands in the request, also when
the events before it have been carried out: there is no reply then. -/
theorem fatal_event_ends_all : ∀ (a b : List (Node × Env)) (s s1 : C) (r1 : Reply) (e : Node) (env : Env),
    events s a = .ok (s1, r1) → read e = .fatal → events s (a ++ (e, env) :: b) = .dies := by
  intro a
  induction a with
  | nil =>
    intro b s s1 r1 e env _ hf
    rw [List.nil_append, events, (dies_iff_fatal s env e).2 hf]
    rfl
  | cons x a ih =>
    intro b s s1 r1 e env h hf
    obtain ⟨s2, p, r2, h1, h2, _⟩ := events_cons h
    obtain ⟨x, xe⟩ := x
    rw [List.cons_append, events, h1]
    simp only [R.bind]
    rw [ih b s2 s1 r2 e env h2 hf]

/-- **C76 (recorded exception).**  Such events: a number, an event without object parameters, a path whose id is a text, a type that is
an array. -/
theorem fatal_events :
    read (.val .num "1".toList) = .fatal ∧
    read (.obj [("action".toList, .val .str "stop".toList), ("params".toList, .arr [])]) = .fatal ∧
    read (.obj [("action".toList, .arr []), ("params".toList, .obj [])]) = .fatal ∧
    read (.obj [("action".toList, .val .str "createFilter".toList),
      ("params".toList, .obj [("id".toList, .val .num "1".toList), ("type".toList, .arr [])])]) = .fatal ∧
    read (.obj [("action".toList, .val .str "createPath".toList),
      ("params".toList, .obj [("id".toList, .val .str "1".toList), ("orgFilterId".toList, .val .num "1".toList),
        ("dstFilterId".toList, .val .num "2".toList), ("orgWriterId".toList, .val .num "1".toList),
        ("dstReaderId".toList, .val .num "1".toList), ("midFiltersIds".toList, .arr [])])]) = .fatal := by
  refine ⟨?_, ?_, ?_, ?_, ?_⟩ <;> decide +kernel

/-- **C76 (recorded exception).**  The manager hands an event to a filter without looking at its action and reports success; an action
that is no value then ends the process when the filter comes to it. -/
theorem delivered_is_not_executed (s : C) (env : Env) (id : Int) (o : Nat) (t : Str) (ht : readInt t = id)
    (h : Pipeline.lookup s.pipe.filters id = some o) :
    ∃ e s' r, processEvent s env e = .ok (s', r) ∧ IsDone r ∧ s'.sent = s.sent ++ [⟨id, o, e, -1⟩] ∧
      (match filterAction e with | .dies => True | _ => False) := by
  refine ⟨.obj [("action".toList, .arr []), ("params".toList, .val .null []), ("filterId".toList, .val .num t)], ?_⟩
  generalize he : Node.obj [("action".toList, .arr []), ("params".toList, .val .null []), ("filterId".toList, .val .num t)] = e
  have hr : read e = .toFilter id (-1) := by
    have k1 : ("params".toList == "action".toList) = false := by decide +kernel
    have k2 : ("filterId".toList == "action".toList) = false := by decide +kernel
    have k3 : ("filterId".toList == "params".toList) = false := by decide +kernel
    have k4 : ("delay".toList == "action".toList) = false := by decide +kernel
    have k5 : ("delay".toList == "params".toList) = false := by decide +kernel
    have k6 : ("delay".toList == "filterId".toList) = false := by decide +kernel
    subst he
    simp only [read, member, List.lookup, BEq.rfl, k1, k2, k3, k4, k5, k6, Option.bind, numberOf, isNum, intOf, if_true, ht, Option.getD]
  have ha := event_answered s env e
  rw [hr] at ha
  obtain ⟨r, h1, h2⟩ := ha.1 o h
  refine ⟨_, r, h1, h2, rfl, ?_⟩
  subst he
  simp [filterAction, has, get, R.bind, toStr]

/-! ## Undefined behaviour -/

/-- Stopping only with at most one path. -/
def CarefulEvent (s : C) (e : Node) : Prop := read e = .stop → s.pipe.paths.length ≤ 1

/-- Careful all along the request. -/
def CarefulEvents : C → List (Node × Env) → Prop
  | _, [] => True
  | s, e :: es => CarefulEvent s e.1 ∧ ∀ s' r, processEvent s e.2 e.1 = .ok (s', r) → CarefulEvents s' es

theorem tells_wf {s : C} {o : Outcome (Pipeline.S × Bool)} {x : R (C × Reply)} (h : Tells s o x)
    (ho : ∃ q b, o = .ok (q, b) ∧ Pipeline.WF q) : ∃ s' r, x = .ok (s', r) ∧ Pipeline.WF s'.pipe := by
  obtain ⟨q, b, rfl, hw⟩ := ho
  cases x with
  | dies => cases b <;> simp [Tells] at h
  | ub => cases b <;> simp [Tells] at h
  | ok v =>
    obtain ⟨c, r⟩ := v
    refine ⟨c, r, rfl, ?_⟩
    cases b <;> (simp only [Tells] at h; rw [h.1]; exact hw)

theorem byKey_short {β : Type} (l : List (Int × β)) (h : l.length ≤ 1) : byKey l = l := by
  match l, h with
  | [], _ => rfl
  | [_], _ => rfl

theorem getState_ok {s : C} (env : Env) (hw : Pipeline.WF s.pipe) :
    getState s env = .ok (s, [("filters".toList, .arr ((byKey s.pipe.filters).map fun e => filterReport env e.1)),
      ("paths".toList, .arr ((byKey s.pipe.paths).map fun e => pathReport s.pipe env e.1 e.2))]) := by
  unfold getState
  rw [if_neg, if_neg]
  · intro h
    simp only [List.any_eq_true, List.contains_iff_mem] at h
    obtain ⟨e, h1, h2⟩ := h
    have := List.nodup_append.1 hw.objects
    exact this.2.2 _ (List.mem_map_of_mem h1) _ h2 rfl
  · rw [hw.alive]; simp

/-- **C76.**  On registries in order every event is either answered, leaving them in order, or ends the process; nothing is undefined. -/
theorem event_keeps_order {s : C} (env : Env) {e : Node} (hw : Pipeline.WF s.pipe) (hc : CarefulEvent s e) (hf : read e ≠ .fatal) :
    ∃ s' r, processEvent s env e = .ok (s', r) ∧ Pipeline.WF s'.pipe := by
  have ha := event_answered s env e
  cases hr : read e with
  | fatal => exact absurd hr hf
  | getState => rw [hr] at ha; exact ⟨s, _, Eq.trans ha (getState_ok env hw), hw⟩
  | malformed => rw [hr] at ha; obtain ⟨r', h1, _⟩ := ha; exact ⟨s, r', h1, hw⟩
  | toFilter id d =>
    rw [hr] at ha
    cases ho : Pipeline.lookup s.pipe.filters id with
    | none => obtain ⟨r', h1, _⟩ := ha.2 ho; exact ⟨s, r', h1, hw⟩
    | some o => obtain ⟨r', h1, _⟩ := ha.1 o ho; exact ⟨_, r', h1, hw⟩
  | createFilter id t => rw [hr] at ha; exact tells_wf ha (Pipeline.step_wf hw _ trivial)
  | createPath id org dst w rd ms =>
    rw [hr] at ha
    rcases ha with ⟨_, ha⟩ | ⟨h1, ha⟩
    · exact tells_wf ha (Pipeline.step_wf hw (.createPath id org dst w rd ms env.gw env.gr) trivial)
    · refine tells_wf ha (Pipeline.step_wf (Pipeline.createPath_wf hw id org dst w rd ms env.gw env.gr) (.connectPath id env.connected) ?_)
      have hacc := ((Pipeline.accepted_requests hw).2.1 id org dst w rd ms env.gw env.gr).1 h1
      rw [Pipeline.createPath_eq, if_pos hacc]
      intro p hp
      rcases List.mem_append.1 hp with hp | hp
      · exact absurd hp (hacc.1 p)
      · simp only [List.mem_singleton, Prod.mk.injEq, true_and] at hp
        subst hp
        exact ⟨hacc.2.1, hacc.2.2.1⟩
  | removePath id => rw [hr] at ha; exact tells_wf ha (Pipeline.step_wf hw (.removePath id (env.disc id)) trivial)
  | removeFilter id => rw [hr] at ha; exact tells_wf ha (Pipeline.step_wf hw (.removeFilter id) trivial)
  | stop =>
    rw [hr] at ha
    refine tells_wf (s := s) (o := Pipeline.step s.pipe (.stop env.disc)) ?_ (Pipeline.step_wf hw (.stop env.disc) (hc hr))
    simp only [Answers] at ha
    rw [byKey_short _ (hc hr)] at ha
    exact ha

/-- **C76.**  A whole request on registries in order: nothing is undefined, and it ends the process exactly if one of its events
cannot be read. -/
theorem request_defined : ∀ (es : List (Node × Env)) (s : C), Pipeline.WF s.pipe → CarefulEvents s es →
    (events s es = .dies ∧ ∃ e ∈ es, read e.1 = .fatal) ∨
    (∃ s' r, events s es = .ok (s', r) ∧ Pipeline.WF s'.pipe ∧ ∀ e ∈ es, read e.1 ≠ .fatal) := by
  intro es
  induction es with
  | nil => intro s hw _; exact Or.inr ⟨s, [], rfl, hw, by simp⟩
  | cons x es ih =>
    intro s hw hc
    obtain ⟨e, env⟩ := x
    by_cases hf : read e = .fatal
    · refine Or.inl ⟨?_, (e, env), List.mem_cons_self .., hf⟩
      rw [events, (dies_iff_fatal s env e).2 hf]; rfl
    · obtain ⟨s1, p, h1, hw1⟩ := event_keeps_order env hw hc.1 hf
      rcases ih s1 hw1 (hc.2 s1 p h1) with ⟨h2, e2, hm, h3⟩ | ⟨s', r, h2, hw2, h3⟩
      · refine Or.inl ⟨?_, e2, List.mem_cons_of_mem _ hm, h3⟩
        rw [events, h1]; simp [R.bind, h2]
      · refine Or.inr ⟨s', p ++ r, ?_, hw2, ?_⟩
        · rw [events, h1]; simp [R.bind, h2]
        · intro x hx
          rcases List.mem_cons.1 hx with rfl | hx
          · exact hf
          · exact h3 x hx

/-- The questions of ordinary events; such a request is careful and has no fatal event. -/
theorem ordinary_events :
    read (.obj [("action".toList, .val .str "createFilter".toList),
      ("params".toList, .obj [("id".toList, .val .num "5".toList), ("type".toList, .val .str "audioMixer".toList)])]) =
      .createFilter 5 "audioMixer".toList ∧
    read (.obj [("filterId".toList, .val .num "5".toList), ("action".toList, .val .str "mute".toList), ("delay".toList, .val .num "40".toList),
      ("params".toList, .obj [])]) = .toFilter 5 40 ∧
    read (.obj [("action".toList, .val .str "mute".toList), ("params".toList, .obj [])]) = .malformed := by
  refine ⟨?_, ?_, ?_⟩ <;> decide +kernel

end Lms.Control
