import Verif.Control.Spec
import Verif.JsonStream.Cut
import Verif.Pipeline.Props

/-!
# The control protocol: every event is answered as asked
-/

namespace Lms.Control

open Lms Lms.Json

/-! ## Accessors -/

theorem find_lookup (l : List (Str × Node)) (k : Str) : (l.find? fun e => decide (e.1 = k)).map (·.2) = l.lookup k := by
  induction l with
  | nil => rfl
  | cons e l ih =>
    obtain ⟨a, b⟩ := e
    rw [List.find?_cons, List.lookup_cons]
    by_cases h : a = k
    · subst h; simp
    · have h' : (k == a) = false := by simp; exact fun hh => h hh.symm
      simp [h, h', ih]

theorem any_lookup (l : List (Str × Node)) (k : Str) : (l.any fun e => decide (e.1 = k)) = (l.lookup k).isSome := by
  induction l with
  | nil => rfl
  | cons e l ih =>
    obtain ⟨a, b⟩ := e
    rw [List.any_cons, List.lookup_cons]
    by_cases h : a = k
    · subst h; simp
    · have h' : (k == a) = false := by simp; exact fun hh => h hh.symm
      simp [h, h', ih]

theorem has_obj (l : List (Str × Node)) (k : String) : has (.obj l) k.toList = .ok (member k (.obj l)).isSome := by
  simp only [has, member, any_lookup]

theorem get_obj (l : List (Str × Node)) (k : String) (n : Node) (h : member k (.obj l) = some n) :
    get (.obj l) k.toList = .ok n := by
  have := find_lookup l k.toList
  simp only [member] at h
  rw [h] at this
  simp only [get]
  cases hf : l.find? fun e => decide (e.1 = k.toList) with
  | none => rw [hf] at this; simp at this
  | some e => rw [hf] at this; simp only [Option.map_some, Option.some.injEq] at this; simp [this]

theorem toInt_eq (n : Node) : toInt n = match intOf n with | some z => .ok z | none => .dies := by
  cases n with
  | val t s => cases t <;> rfl
  | arr l => rfl
  | obj l => rfl

theorem toStr_eq (n : Node) : toStr n = match textOf n with | some z => .ok z | none => .dies := by
  cases n with
  | val t s => cases t <;> rfl
  | arr l => rfl
  | obj l => rfl

@[simp] theorem bind_ok {α β : Type} (a : α) (f : α → R β) : R.bind (.ok a) f = f a := rfl
@[simp] theorem bind_dies {α β : Type} (f : α → R β) : R.bind (.dies : R α) f = .dies := rfl
@[simp] theorem bind_ub {α β : Type} (f : α → R β) : R.bind (.ub : R α) f = .ub := rfl

theorem num_int (n : Node) (h : isNum n = true) : ∃ z, intOf n = some z := by
  cases n with
  | val t s => cases t <;> simp [isNum, intOf] at h ⊢
  | arr l => simp [isNum] at h
  | obj l => simp [isNum] at h

theorem toInts_eq (l : List Node) : toInts l = match allSome (l.map intOf) with | some z => .ok z | none => .dies := by
  induction l with
  | nil => rfl
  | cons n l ih =>
    simp only [toInts, toInt_eq, List.map_cons]
    cases intOf n with
    | none => rfl
    | some z =>
      simp only [bind_ok, ih, allSome]
      cases allSome (l.map intOf) <;> rfl

theorem hasAll_obj (l : List (Str × Node)) (ks : List String) :
    hasAll (.obj l) ks = .ok (allSome (ks.map fun k => member k (.obj l))).isSome := by
  induction ks with
  | nil => rfl
  | cons k ks ih =>
    simp only [hasAll, has_obj, bind_ok, List.map_cons]
    cases hm : member k (.obj l) with
    | none => simp [allSome]
    | some n =>
      simp only [Option.isSome_some, if_true, ih, allSome]
      cases allSome (ks.map fun k => member k (.obj l)) <;> rfl

theorem getInt_obj (l : List (Str × Node)) (k : String) (n : Node) (h : member k (.obj l) = some n) :
    getInt (.obj l) k = match intOf n with | some z => .ok z | none => .dies := by
  simp only [getInt, get_obj l k n h, bind_ok, toInt_eq]

theorem type_known (t : Str) : (typeNames.any fun x => decide (x.toList = t)) = decide (t ∈ typeNames.map String.toList) := by
  rw [Bool.eq_iff_iff]
  simp

/-! ## Each kind of event -/

theorem tells_ok (s : C) (s' : Pipeline.S) (b : Bool) (msg : String) :
    Tells s (.ok (s', b)) (.ok ({ s with pipe := s' }, [if b then done else failed msg])) := by
  cases b
  · exact ⟨rfl, _, rfl⟩
  · exact ⟨rfl, rfl⟩

theorem tells_of (s : C) (o : Outcome (Pipeline.S × Bool)) (msg : String) :
    Tells s o ((R.ofOutcome o).bind fun q => .ok ({ s with pipe := q.1 }, [if q.2 then done else failed msg])) := by
  cases o with
  | ok q => obtain ⟨s', b⟩ := q; exact tells_ok s s' b msg
  | ub => trivial
  | hang => trivial

theorem createFilter_answers (s : C) (env : Env) (e : Node) (l : List (Str × Node)) :
    Answers s env e (createFilterEvent s (.obj l)) (readCreateFilter (.obj l)) := by
  simp only [createFilterEvent, readCreateFilter, has_obj, bind_ok]
  cases hi : member "id" (.obj l) with
  | none => simp; exact ⟨_, rfl, _, rfl⟩
  | some i =>
    cases ht : member "type" (.obj l) with
    | none => simp [has_obj, ht]; exact ⟨_, rfl, _, rfl⟩
    | some t =>
      simp only [Option.isSome_some, if_true, has_obj, ht, bind_ok, Bool.and_self, Bool.not_true, Bool.false_eq_true, if_false,
        get_obj l _ i hi, numberOf]
      cases hn : isNum i with
      | false => simp; exact ⟨_, rfl, _, rfl⟩
      | true =>
        obtain ⟨z, hz⟩ := num_int i hn
        simp only [Bool.not_true, Bool.false_eq_true, if_false, if_true, toInt_eq, hz, bind_ok, get_obj l _ t ht, toStr_eq]
        cases hx : textOf t with
        | none => simp only [bind_dies]; rfl
        | some ty =>
          simp only [bind_ok, type_known]
          exact tells_ok s _ _ _

theorem createPath_answers (s : C) (env : Env) (e : Node) (l : List (Str × Node)) :
    Answers s env e (createPathEvent s env (.obj l)) (readCreatePath (.obj l)) := by
  simp only [createPathEvent, readCreatePath, hasAll_obj, bind_ok]
  cases ha : allSome (["id", "orgFilterId", "dstFilterId", "orgWriterId", "dstReaderId"].map fun k => member k (.obj l)) with
  | none => simp; exact ⟨_, rfl, _, rfl⟩
  | some ns =>
    simp only [Option.isSome_some, Bool.not_true, Bool.false_eq_true, if_false]
    simp only [List.map_cons, List.map_nil] at ha
    cases h1 : member "id" (.obj l) with
    | none => rw [h1] at ha; simp [allSome] at ha
    | some n1 =>
    cases h2 : member "orgFilterId" (.obj l) with
    | none => rw [h1, h2] at ha; simp [allSome] at ha
    | some n2 =>
    cases h3 : member "dstFilterId" (.obj l) with
    | none => rw [h1, h2, h3] at ha; simp [allSome] at ha
    | some n3 =>
    cases h4 : member "orgWriterId" (.obj l) with
    | none => rw [h1, h2, h3, h4] at ha; simp [allSome] at ha
    | some n4 =>
    cases h5 : member "dstReaderId" (.obj l) with
    | none => rw [h1, h2, h3, h4, h5] at ha; simp [allSome] at ha
    | some n5 =>
    rw [h1, h2, h3, h4, h5] at ha
    simp only [allSome, Option.map_some, Option.some.injEq] at ha
    subst ha
    simp only [getInt_obj l _ _ h1, getInt_obj l _ _ h2, getInt_obj l _ _ h3, getInt_obj l _ _ h4, getInt_obj l _ _ h5,
      List.map_cons, List.map_nil]
    cases i1 : intOf n1 with
    | none => simp only [allSome, bind_dies]; rfl
    | some z1 =>
    cases i2 : intOf n2 with
    | none => simp only [allSome, bind_ok, bind_dies, Option.map_none]; rfl
    | some z2 =>
    cases i3 : intOf n3 with
    | none => simp only [allSome, bind_ok, bind_dies, Option.map_none]; rfl
    | some z3 =>
    cases i4 : intOf n4 with
    | none => simp only [allSome, bind_ok, bind_dies, Option.map_none]; rfl
    | some z4 =>
    cases i5 : intOf n5 with
    | none => simp only [allSome, bind_ok, bind_dies, Option.map_none]; rfl
    | some z5 =>
    simp only [allSome, bind_ok, Option.map_some, has_obj]
    cases hm : member "midFiltersIds" (.obj l) with
    | none => simp; exact ⟨_, rfl, _, rfl⟩
    | some n =>
      simp only [Option.isSome_some, Bool.not_true, Bool.false_eq_true, if_false, get_obj l _ n hm, bind_ok]
      cases n with
      | val t x => exact ⟨_, rfl, _, rfl⟩
      | obj x => exact ⟨_, rfl, _, rfl⟩
      | arr x =>
        simp only [toInts_eq]
        cases hx : allSome (x.map intOf) with
        | none => simp only [bind_dies]; rfl
        | some ms =>
          simp only [bind_ok]
          cases hc : (Pipeline.createPath s.pipe z1 z2 z3 z4 z5 ms env.gw env.gr).2 with
          | false =>
            left
            refine ⟨hc, ?_⟩
            simp only [Bool.not_false, if_true, Pipeline.step]
            obtain ⟨c, hcc⟩ : ∃ c, c = Pipeline.createPath s.pipe z1 z2 z3 z4 z5 ms env.gw env.gr := ⟨_, rfl⟩
            rw [← hcc] at hc ⊢
            obtain ⟨a, b⟩ := c
            simp only at hc; subst hc
            exact ⟨rfl, _, rfl⟩
          | true =>
            right
            refine ⟨hc, ?_⟩
            simp only [Bool.not_true, Bool.false_eq_true, if_false, Pipeline.step]
            exact tells_of s _ _

theorem removeId_eq (l : List (Str × Node)) : removeId (.obj l) = .ok ((member "id" (.obj l)).bind numberOf) := by
  simp only [removeId, has_obj, bind_ok]
  cases hi : member "id" (.obj l) with
  | none => simp
  | some i =>
    simp only [Option.isSome_some, Bool.not_true, Bool.false_eq_true, if_false, get_obj l _ i hi, bind_ok, Option.bind_some,
      numberOf]
    cases hn : isNum i with
    | false => simp
    | true => obtain ⟨z, hz⟩ := num_int i hn; simp [toInt_eq, hz]

/-- **C76.**  Every event is answered as its question demands. -/
theorem event_answered (s : C) (env : Env) (e : Node) : Answers s env e (processEvent s env e) (read e) := by
  cases e with
  | val t x => rfl
  | arr x => rfl
  | obj l =>
    simp only [processEvent, asObject, bind_ok, hasAll_obj, List.map_cons, List.map_nil, read, has_obj]
    cases ha : member "action" (.obj l) with
    | none => simp [allSome]; exact ⟨_, rfl, _, rfl⟩
    | some a =>
    cases hp : member "params" (.obj l) with
    | none => simp [allSome]; exact ⟨_, rfl, _, rfl⟩
    | some p =>
    simp only [allSome, Option.map_some, Option.isSome_some, Bool.not_true, Bool.false_eq_true, if_false]
    have own : Answers s env (.obj l)
        ((get (.obj l) "action".toList).bind fun na => (toStr na).bind fun action =>
          (get (.obj l) "params".toList).bind fun np => (asObject np).bind fun params => ownEvent s env action params)
        (readOwn a p) := by
      simp only [get_obj l _ a ha, bind_ok, toStr_eq, get_obj l _ p hp, readOwn]
      cases hx : textOf a with
      | none => simp only [bind_dies]; rfl
      | some act =>
        simp only [bind_ok]
        cases p with
        | val t x => rfl
        | arr x => rfl
        | obj x =>
          simp only [asObject, bind_ok, ownEvent]
          split
          · exact rfl
          split
          · exact createPath_answers s env _ x
          split
          · simp only [removePathEvent, removeId_eq, bind_ok, readRemove]
            cases (member "id" (.obj x)).bind numberOf with
            | none => exact ⟨_, rfl, _, rfl⟩
            | some id => exact tells_of s _ _
          split
          · exact createFilter_answers s env _ x
          split
          · simp only [removeFilterEvent, removeId_eq, bind_ok, readRemove]
            cases (member "id" (.obj x)).bind numberOf with
            | none => exact ⟨_, rfl, _, rfl⟩
            | some id => exact tells_of s _ _
          split
          · exact tells_of s _ _
          · exact ⟨_, rfl, _, rfl⟩
    cases hf : member "filterId" (.obj l) with
    | none =>
      simp only [Option.isSome_none, Bool.false_eq_true, if_false, bind_ok, Option.bind_none]
      exact own
    | some n =>
      simp only [Option.isSome_some, if_true, get_obj l _ n hf, bind_ok, Option.bind_some, numberOf]
      cases hn : isNum n with
      | false =>
        simp only [Bool.false_eq_true, if_false]
        exact own
      | true =>
        obtain ⟨z, hz⟩ := num_int n hn
        simp only [if_true, toInt_eq, hz, bind_ok]
        have hd : delayOf (.obj l) = .ok (((member "delay" (.obj l)).bind numberOf).getD (-1)) := by
          simp only [delayOf, has_obj, bind_ok]
          cases hdl : member "delay" (.obj l) with
          | none => simp
          | some d =>
            simp only [Option.isSome_some, Bool.not_true, Bool.false_eq_true, if_false, get_obj l _ d hdl, bind_ok,
              Option.bind_some, numberOf]
            cases hnd : isNum d with
            | false => simp
            | true => obtain ⟨y, hy⟩ := num_int d hnd; simp [toInt_eq, hy]
        rw [hd]
        simp only [bind_ok, filterEvent, numberOf]
        refine ⟨?_, ?_⟩
        · intro o ho; rw [ho]; exact ⟨_, rfl, rfl⟩
        · intro ho; rw [ho]; exact ⟨_, rfl, _, rfl⟩

theorem tells_not_dies {s : C} {o : Outcome (Pipeline.S × Bool)} : ¬ Tells s o .dies := by
  cases o with
  | ok q => obtain ⟨a, b⟩ := q; cases b <;> exact fun h => h
  | ub => exact fun h => h
  | hang => exact fun h => h

/-- **C76.**  Which events end the process is decided by the event alone, whatever the registries are. -/
theorem dies_iff_fatal (s : C) (env : Env) (e : Node) : processEvent s env e = .dies ↔ read e = .fatal := by
  have h := event_answered s env e
  constructor
  · intro hd
    rw [hd] at h
    cases hr : read e with
    | fatal => rfl
    | toFilter id d =>
      rw [hr] at h
      cases ho : Pipeline.lookup s.pipe.filters id with
      | none => obtain ⟨r, h1, _⟩ := h.2 ho; simp at h1
      | some o => obtain ⟨r, h1, _⟩ := h.1 o ho; simp at h1
    | getState =>
      rw [hr] at h
      simp only [Answers, getState] at h
      split at h
      · simp at h
      · split at h <;> simp at h
    | createFilter id t => rw [hr] at h; exact absurd h tells_not_dies
    | createPath id org dst w r ms =>
      rw [hr] at h
      rcases h with ⟨_, h⟩ | ⟨_, h⟩
      · exact absurd h tells_not_dies
      · exact absurd h tells_not_dies
    | removePath id => rw [hr] at h; exact absurd h tells_not_dies
    | removeFilter id => rw [hr] at h; exact absurd h tells_not_dies
    | stop => rw [hr] at h; exact absurd h tells_not_dies
    | malformed => rw [hr] at h; obtain ⟨r, h1, _⟩ := h; simp at h1
  · intro hr; rw [hr] at h; exact h

theorem done_not_failed {r : Reply} (h : IsDone r) : ¬ IsFailed r := by
  rintro ⟨t, ht⟩; unfold IsDone at h; rw [h] at ht; simp at ht

theorem tells_failed {s s' : C} {o : Outcome (Pipeline.S × Bool)} {r : Reply} (h : Tells s o (.ok (s', r))) (hf : IsFailed r) :
    ∃ q, o = .ok (q, false) ∧ s' = { s with pipe := q } := by
  cases o with
  | ok q =>
    obtain ⟨a, b⟩ := q
    cases b with
    | false => exact ⟨a, rfl, h.1⟩
    | true => exact absurd hf (done_not_failed h.2)
  | ub => exact absurd h (fun h => h)
  | hang => exact absurd h (fun h => h)

theorem tells_done {s s' : C} {o : Outcome (Pipeline.S × Bool)} {r : Reply} (h : Tells s o (.ok (s', r))) (hf : IsDone r) :
    ∃ q, o = .ok (q, true) ∧ s' = { s with pipe := q } := by
  cases o with
  | ok q =>
    obtain ⟨a, b⟩ := q
    cases b with
    | true => exact ⟨a, rfl, h.1⟩
    | false => exact absurd h.2 (done_not_failed hf)
  | ub => exact absurd h (fun h => h)
  | hang => exact absurd h (fun h => h)

/-- A report is no verdict. -/
theorem getState_reply {s s' : C} {env : Env} {r : Reply} (h : getState s env = .ok (s', r)) :
    s' = s ∧ ∃ a b, r = [("filters".toList, .arr a), ("paths".toList, .arr b)] := by
  unfold getState at h
  split at h
  · simp at h
  · split at h
    · simp at h
    · simp only [R.ok.injEq, Prod.mk.injEq] at h
      exact ⟨h.1.symm, _, _, h.2.symm⟩

/-- **C76.**  A failure changes nothing, with two exceptions: a path that could not be connected stays registered, and a stop may
fail half way. -/
theorem failure_changes_nothing {s s' : C} {env : Env} {e : Node} {r : Reply} (hw : Pipeline.WF s.pipe)
    (h : processEvent s env e = .ok (s', r)) (hf : IsFailed r) :
    s' = s ∨ read e = .stop ∨ ∃ id org dst w rd ms, read e = .createPath id org dst w rd ms ∧
      s' = { s with pipe := (Pipeline.createPath s.pipe id org dst w rd ms env.gw env.gr).1 } := by
  have ha := event_answered s env e
  rw [h] at ha
  have unchanged : ∀ (op : Pipeline.Op) (q : Pipeline.S), Pipeline.Careful s.pipe op → (∀ d, op ≠ .stop d) →
      Pipeline.step s.pipe op = .ok (q, false) → s' = { s with pipe := q } → s' = s := by
    intro op q hc hs hq he
    rw [he, Pipeline.refused_request_changes_nothing hw op hc hs hq]
  cases hr : read e with
  | fatal => rw [hr] at ha; simp [Answers] at ha
  | stop => exact Or.inr (Or.inl rfl)
  | malformed =>
    rw [hr] at ha; obtain ⟨r', h1, _⟩ := ha
    simp only [R.ok.injEq, Prod.mk.injEq] at h1; exact Or.inl h1.1
  | toFilter id d =>
    rw [hr] at ha
    cases ho : Pipeline.lookup s.pipe.filters id with
    | none =>
      obtain ⟨r', h1, _⟩ := ha.2 ho
      simp only [R.ok.injEq, Prod.mk.injEq] at h1; exact Or.inl h1.1
    | some o =>
      obtain ⟨r', h1, h2⟩ := ha.1 o ho
      simp only [R.ok.injEq, Prod.mk.injEq] at h1
      rw [← h1.2] at h2
      exact absurd hf (done_not_failed h2)
  | getState => rw [hr] at ha; exact Or.inl (getState_reply ha.symm).1
  | createFilter id t =>
    rw [hr] at ha
    obtain ⟨q, h1, h2⟩ := tells_failed ha hf
    exact Or.inl (unchanged (.createFilter id (decide (t ∈ typeNames.map String.toList))) q trivial (by simp) h1 h2)
  | removePath id =>
    rw [hr] at ha
    obtain ⟨q, h1, h2⟩ := tells_failed ha hf
    exact Or.inl (unchanged (.removePath id (env.disc id)) q trivial (by simp) h1 h2)
  | removeFilter id =>
    rw [hr] at ha
    obtain ⟨q, h1, h2⟩ := tells_failed ha hf
    exact Or.inl (unchanged (.removeFilter id) q trivial (by simp) h1 h2)
  | createPath id org dst w rd ms =>
    rw [hr] at ha
    rcases ha with ⟨_, ha⟩ | ⟨_, ha⟩
    · obtain ⟨q, h1, h2⟩ := tells_failed ha hf
      exact Or.inl (unchanged (.createPath id org dst w rd ms env.gw env.gr) q trivial (by simp) h1 h2)
    · obtain ⟨q, h1, h2⟩ := tells_failed ha hf
      refine Or.inr (Or.inr ⟨id, org, dst, w, rd, ms, rfl, ?_⟩)
      rw [h2]
      congr 1
      simp only [Pipeline.step, Pipeline.connectPath] at h1
      split at h1
      · simp at h1; exact h1.symm
      · repeat' split at h1
        all_goals simp at h1
        all_goals first | exact h1.symm | exact h1.1.symm

/-- After a stop that succeeds nothing is registered. -/
theorem stop_true {s q : Pipeline.S} {order : List (Int × Pipeline.Path)} {disc : Int → Bool}
    (h : Pipeline.stop s order disc = .ok (q, true)) : q.filters = [] ∧ q.paths = [] := by
  unfold Pipeline.stop at h
  cases hp : s.pool with
  | none => rw [hp] at h; simp at h
  | some w =>
    rw [hp] at h
    simp only at h
    cases ho : Pipeline.stopPaths disc { s with workers := false } order with
    | ub => rw [hp] at ho; rw [ho] at h; simp [Outcome.bind] at h
    | hang => rw [hp] at ho; rw [ho] at h; simp [Outcome.bind] at h
    | ok v =>
      obtain ⟨v, b⟩ := v
      rw [hp] at ho; rw [ho] at h
      simp only [Outcome.bind_ok] at h
      cases b with
      | false => simp at h
      | true =>
        simp only [Bool.not_true, Bool.false_eq_true, if_false] at h
        cases hd : Pipeline.deleteAll v.deleted v.filters with
        | ub => rw [hd] at h; simp [Outcome.bind] at h
        | hang => rw [hd] at h; simp [Outcome.bind] at h
        | ok d =>
          rw [hd] at h
          simp only [Outcome.bind_ok, Outcome.ok.injEq, Prod.mk.injEq, and_true] at h
          rw [← h]; exact ⟨rfl, rfl⟩

/-- **C76.**  A success has been carried out. -/
theorem success_is_carried_out {s s' : C} {env : Env} {e : Node} {r : Reply} (hw : Pipeline.WF s.pipe)
    (h : processEvent s env e = .ok (s', r)) (hd : IsDone r) :
    match read e with
    | .toFilter id d => ∃ o, (id, o) ∈ s.pipe.filters ∧ s'.pipe = s.pipe ∧ s'.sent = s.sent ++ [⟨id, o, e, d⟩]
    | .createFilter id t => 0 ≤ id ∧ ¬ Pipeline.Reg s.pipe id ∧ t ∈ typeNames.map String.toList ∧
        (∀ f, Pipeline.Reg s'.pipe f ↔ Pipeline.Reg s.pipe f ∨ f = id) ∧ s'.pipe.paths = s.pipe.paths
    | .createPath id org dst w rd ms => (∀ p, (id, p) ∉ s.pipe.paths) ∧ s'.pipe.filters = s.pipe.filters ∧
        s'.pipe.paths = s.pipe.paths ++ [(id, ⟨org, dst, if w < 0 then env.gw else w, if rd < 0 then env.gr else rd, ms⟩)] ∧
        env.connected = true
    | .removePath id => (∀ p, (id, p) ∉ s'.pipe.paths) ∧ ∀ k p, k ≠ id → (k, p) ∈ s.pipe.paths → (k, p) ∈ s'.pipe.paths
    | .removeFilter id => Pipeline.Reg s.pipe id ∧ (∀ f, Pipeline.Reg s'.pipe f ↔ Pipeline.Reg s.pipe f ∧ f ≠ id) ∧
        s'.pipe.paths = s.pipe.paths
    | .stop => s'.pipe.filters = [] ∧ s'.pipe.paths = []
    | .getState => False
    | .malformed => False
    | .fatal => False := by
  have ha := event_answered s env e
  rw [h] at ha
  cases hr : read e with
  | fatal => rw [hr] at ha; simp [Answers] at ha
  | malformed =>
    rw [hr] at ha; obtain ⟨r', h1, h2⟩ := ha
    simp only [R.ok.injEq, Prod.mk.injEq] at h1
    rw [← h1.2] at h2
    exact absurd h2 (done_not_failed hd)
  | getState =>
    rw [hr] at ha
    obtain ⟨_, a, b, hab⟩ := getState_reply ha.symm
    unfold IsDone at hd
    rw [hd] at hab
    exact absurd (congrArg List.length hab) (by simp)
  | toFilter id d =>
    rw [hr] at ha
    cases ho : Pipeline.lookup s.pipe.filters id with
    | none =>
      obtain ⟨r', h1, h2⟩ := ha.2 ho
      simp only [R.ok.injEq, Prod.mk.injEq] at h1
      rw [← h1.2] at h2
      exact absurd h2 (done_not_failed hd)
    | some o =>
      obtain ⟨r', h1, _⟩ := ha.1 o ho
      simp only [R.ok.injEq, Prod.mk.injEq] at h1
      rw [h1.1]
      exact ⟨o, Pipeline.lookup_mem ho, rfl, rfl⟩
  | createFilter id t =>
    rw [hr] at ha
    obtain ⟨q, h1, h2⟩ := tells_done ha hd
    simp only [Pipeline.step, Outcome.ok.injEq] at h1
    have hacc := ((Pipeline.accepted_requests hw).1 id (decide (t ∈ typeNames.map String.toList))).1 (by rw [h1])
    refine ⟨hacc.1, hacc.2.1, by simpa using hacc.2.2, ?_, ?_⟩
    · rw [Pipeline.createFilter_eq hw] at h1
      split at h1
      · simp at h1
      · simp only [Prod.mk.injEq, and_true] at h1
        intro f
        rw [h2, ← h1]
        simp only [Pipeline.Reg, List.mem_append, List.mem_singleton, Prod.mk.injEq]
        constructor
        · rintro ⟨o, h3 | h3⟩
          · exact Or.inl ⟨o, h3⟩
          · exact Or.inr h3.1
        · rintro (⟨o, h3⟩ | h3)
          · exact ⟨o, Or.inl h3⟩
          · exact ⟨_, Or.inr ⟨h3, rfl⟩⟩
    · rw [h2]
      have := Pipeline.paths_createFilter hw id (decide (t ∈ typeNames.map String.toList))
      rw [h1] at this; exact this
  | createPath id org dst w rd ms =>
    rw [hr] at ha
    rcases ha with ⟨hc, ha⟩ | ⟨hc, ha⟩
    · obtain ⟨q, h1, _⟩ := tells_done ha hd
      simp only [Pipeline.step, Outcome.ok.injEq] at h1
      rw [h1] at hc; simp at hc
    · obtain ⟨q, h1, h2⟩ := tells_done ha hd
      have hacc := ((Pipeline.accepted_requests hw).2.1 id org dst w rd ms env.gw env.gr).1 hc
      have hq : q = (Pipeline.createPath s.pipe id org dst w rd ms env.gw env.gr).1 ∧ env.connected = true := by
        simp only [Pipeline.step, Pipeline.connectPath] at h1
        split at h1
        · simp at h1
        · repeat' split at h1
          all_goals simp at h1
          all_goals exact ⟨h1.1.symm, h1.2⟩
      have hcp : (Pipeline.createPath s.pipe id org dst w rd ms env.gw env.gr).1 =
          { s.pipe with paths := s.pipe.paths ++
            [(id, ⟨org, dst, if w < 0 then env.gw else w, if rd < 0 then env.gr else rd, ms⟩)] } := by
        rw [Pipeline.createPath_eq, if_pos hacc]
      refine ⟨hacc.1, ?_, ?_, hq.2⟩
      · rw [h2, hq.1, hcp]
      · rw [h2, hq.1, hcp]
  | removePath id =>
    rw [hr] at ha
    obtain ⟨q, h1, h2⟩ := tells_done ha hd
    have hpaths : q.paths = Pipeline.erase s.pipe.paths id := by
      by_cases hp : ∃ p, (id, p) ∈ s.pipe.paths
      · obtain ⟨p, hp⟩ := hp
        by_cases hx : env.disc id = true ∧ ∀ f, Pipeline.Uses p f → Pipeline.Reg s.pipe f
        · obtain ⟨q', e1, _, e2, _⟩ := Pipeline.removePath_ok hw hp hx.2
          simp only [Pipeline.step, hx.1] at h1
          rw [e1] at h1
          simp only [Outcome.ok.injEq, Prod.mk.injEq, and_true] at h1
          rw [← h1, e2]
        · simp only [Pipeline.step] at h1
          rw [Pipeline.removePath_refused hw hp hx] at h1
          simp at h1
      · simp only [Pipeline.step] at h1
        rw [Pipeline.removePath_unknown (fun p hpp => hp ⟨p, hpp⟩)] at h1
        simp only [Outcome.ok.injEq, Prod.mk.injEq, and_true] at h1
        rw [← h1]
        symm
        unfold Pipeline.erase
        rw [List.filter_eq_self]
        intro x hx
        simp only [ne_eq, decide_not, Bool.not_eq_true', decide_eq_false_iff_not]
        intro hxi
        exact hp ⟨x.2, by rw [← hxi]; exact hx⟩
    rw [h2]
    constructor
    · intro p hp
      simp only [hpaths, Pipeline.mem_erase] at hp
      exact hp.2 rfl
    · intro k p hk hp
      simp only [hpaths, Pipeline.mem_erase]
      exact ⟨hp, hk⟩
  | removeFilter id =>
    rw [hr] at ha
    obtain ⟨q, h1, h2⟩ := tells_done ha hd
    simp only [Pipeline.step] at h1
    have hacc := ((Pipeline.accepted_requests hw).2.2.1 id).1 ⟨q, h1⟩
    have hq : q.filters = Pipeline.erase s.pipe.filters id ∧ q.paths = s.pipe.paths := by
      unfold Pipeline.removeFilter at h1
      split at h1
      · simp at h1
      · split at h1
        · simp at h1
        · split at h1
          · simp at h1
          · unfold Pipeline.removeTask at h1
            split at h1
            · simp at h1
            · simp only [Outcome.bind_ok] at h1
              split at h1
              · simp at h1
              · simp only [Outcome.ok.injEq, Prod.mk.injEq, and_true] at h1
                rw [← h1]; exact ⟨rfl, rfl⟩
    rw [h2]
    exact ⟨hacc.1, Pipeline.reg_erase hq.1, hq.2⟩
  | stop =>
    rw [hr] at ha
    obtain ⟨q, h1, h2⟩ := tells_done ha hd
    rw [h2]
    exact stop_true h1

end Lms.Control
