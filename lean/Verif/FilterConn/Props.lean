import Verif.FilterConn.Steps

/-!
# C47: connections between filters
-/

namespace Lms.FilterConn

/-! ## Every history -/

theorem share_null {s : St} {f g : Nat} {gid fid : Int} {rcfg : Bool} {t : St} {b : Bool} (h : share s f g gid fid rcfg = .ok (t, b)) (hi : Inv s)
    (hn : ∃ e ∈ s.rs, (e.f = f ∧ e.id = fid ∨ e.f = g ∧ e.id = gid) ∧ e.obj = none) : t = s ∧ b = false := by
  unfold share at h
  by_cases hfg : f = g
  · rw [if_pos hfg] at h; cases h; exact ⟨rfl, rfl⟩
  rw [if_neg hfg] at h
  cases hff : findR s f fid with
  | none => rw [hff] at h; cases h; exact ⟨rfl, rfl⟩
  | some e =>
    rw [hff] at h
    obtain ⟨hem, hef, heid⟩ := findR_some hff
    obtain ⟨f', id', ob⟩ := e
    simp only at hef heid
    subst hef heid
    cases ob with
    | none => cases h
    | some o =>
      simp only at h
      obtain ⟨c, hc, hcr⟩ := rConnected_ok hi (o := o) ⟨_, hem, rfl⟩
      rw [hc] at h
      simp only [Outcome.bind_ok] at h
      cases c with
      | false => rw [if_pos rfl] at h; cases h; exact ⟨rfl, rfl⟩
      | true =>
        rw [if_neg (by decide)] at h
        obtain ⟨x, hx, hk, ho⟩ := hn
        rcases hk with hk | hk
        · rw [hi.rUnique hx hem hk] at ho; cases ho
        · unfold isRConnected at h
          have := findR_of_mem hi hx
          obtain ⟨xf, xid, xo⟩ := x
          simp only at hk ho this
          obtain ⟨rfl, rfl⟩ := hk
          subst ho
          rw [this] at h
          cases h

theorem share_inv {s t : St} {f g : Nat} {gid fid : Int} {rcfg b : Bool} (h : share s f g gid fid rcfg = .ok (t, b)) (hi : Inv s) :
    Inv t ∧ t.maxR = s.maxR ∧ t.maxW = s.maxW ∧ t.lost = s.lost ∧ (NoNull s → NoNull t) := by
  by_cases hn : ∃ e ∈ s.rs, (e.f = f ∧ e.id = fid ∨ e.f = g ∧ e.id = gid) ∧ e.obj = none
  · rw [(share_null h hi hn).1]; exact ⟨hi, rfl, rfl, rfl, id⟩
  · obtain ⟨t', b', h1, h2⟩ := share_ok hi f g gid fid rcfg (fun e he hc h => hn ⟨e, he, .inl hc, h⟩) (fun e he hc h => hn ⟨e, he, .inr hc, h⟩)
    rw [h1] at h; cases h
    rcases h2 with ⟨_, rfl, _⟩ | ⟨_, _, _, _, hi', o, _, _, hrs, _, hl, hm, hw, _⟩
    · exact ⟨hi, rfl, rfl, rfl, id⟩
    · refine ⟨hi', hm, hw, hl, fun hnn e he => ?_⟩
      rw [hrs] at he
      rcases List.mem_append.1 he with he | he
      · exact hnn e ((filter_mem_iff e).1 he).1
      · rw [List.mem_singleton] at he; subst he; intro h; cases h

theorem sweepR_any {s t : St} {f : Nat} {strict : Bool} (h : sweepR s f strict = .ok t) (hi : Inv s) :
    Inv t ∧ (∀ e, e ∈ t.rs ↔ e ∈ s.rs ∧ (e.f = f → ∀ o, e.obj = some o → fed s o)) ∧ t.maxR = s.maxR ∧ t.maxW = s.maxW ∧ t.lost = s.lost ∧ t.ws = s.ws ∧
      t.rs.Sublist s.rs := by
  have hs : strict = true → ∀ e ∈ s.rs, e.f = f → e.obj ≠ none := by
    intro hst e he hf ho
    unfold sweepR at h
    rw [hst, sweepListR_ub (s := s) _ ⟨e, List.mem_filter.2 ⟨he, by simpa using hf⟩, ho⟩ hi (fun e he => (List.mem_filter.1 he).1) (hi.rKey.filter _)] at h
    cases h
  obtain ⟨t', h1, h2, h3, h4, h5, h6, h7, _, _, h8⟩ := sweepR_ok hi f strict hs
  rw [h1] at h; cases h
  exact ⟨h2, h3, h6, h7, h5, h4, h8⟩

theorem disconnectReader_any {s t : St} {f : Nat} {id : Int} {d b : Bool} (h : disconnectReader s f id d = .ok (t, b)) (hi : Inv s) :
    Inv t ∧ (t.rs = s.rs.filter (fun e => ¬ (e.f = f ∧ e.id = id)) ∨ t.rs = s.rs) ∧ t.ws = s.ws ∧ t.maxR = s.maxR ∧ t.maxW = s.maxW ∧ t.lost = s.lost := by
  cases hf : findR s f id with
  | none => unfold disconnectReader at h; rw [hf] at h; cases h; exact ⟨hi, .inr rfl, rfl, rfl, rfl, rfl⟩
  | some e =>
    obtain ⟨hem, hef, heid⟩ := findR_some hf
    obtain ⟨f', id', ob⟩ := e
    simp only at hef heid
    subst hef heid
    cases ob with
    | none => unfold disconnectReader at h; rw [hf] at h; cases h
    | some o =>
      obtain ⟨t', b', h1, h2, h3, h4, h5, h6, h7, _⟩ := disconnectReader_ok hi hem d
      rw [h1] at h; cases h
      exact ⟨h2, h3, h4, h6, h7, h5⟩

theorem connect_maxes {s t : St} {w r : Nat} {wid rid : Int} {a : Hooks} {b : Bool} (h : connect s w r wid rid a = .ok (t, b)) (hi : Inv s) :
    t.maxR = s.maxR ∧ t.maxW = s.maxW ∧ (b = true → t.lost = s.lost) ∧ (t.lost = s.lost ∨ t.lost = s.nextQ :: s.lost) := by
  by_cases hne : w = r
  · unfold connect at h; rw [if_pos hne] at h; cases h
  · obtain ⟨t', b', e, hc⟩ := connect_ok hi wid rid a hne
    rw [e] at h; cases h
    rcases hc with ⟨_, rfl, _⟩ | ⟨hb, rfl, _⟩ | ⟨hb, rfl, _⟩ | ⟨hb, rfl, _⟩
    · exact ⟨rfl, rfl, fun _ => rfl, .inl rfl⟩
    · exact ⟨rfl, rfl, fun _ => rfl, .inl rfl⟩
    · exact ⟨rfl, rfl, (fun h => by rw [hb] at h; cases h), .inr rfl⟩
    · exact ⟨rfl, rfl, (fun h => by rw [hb] at h; cases h), .inr rfl⟩

theorem step_inv {s t : St} {op : Op} {b : Bool} (h : step s op = .ok (t, b)) (hi : Inv s) : Inv t ∧ t.maxR = s.maxR ∧ t.maxW = s.maxW := by
  cases op with
  | connect w r wid rid a => exact ⟨connect_inv h hi, (connect_maxes h hi).1, (connect_maxes h hi).2.1⟩
  | share f g gid fid rcfg => obtain ⟨h1, h2, h3, _⟩ := share_inv h hi; exact ⟨h1, h2, h3⟩
  | disconnectW f id d =>
    obtain ⟨t', b', h1, h2, _, _, _, _, h3, h4, _⟩ := disconnectWriter_ok hi f id d
    simp only [step] at h
    rw [h1] at h; cases h; exact ⟨h2, h3, h4⟩
  | disconnectR f id d => obtain ⟨h1, _, _, h2, h3, _⟩ := disconnectReader_any h hi; exact ⟨h1, h2, h3⟩
  | roundW f =>
    obtain ⟨t', h1, h2, _, _, _, _, h3, h4, _⟩ := sweepW_ok hi f
    simp only [step] at h
    rw [h1] at h; cases h; exact ⟨h2, h3, h4⟩
  | roundR f strict =>
    simp only [step] at h
    cases h1 : sweepR s f strict with
    | ub => rw [h1] at h; cases h
    | hang => rw [h1] at h; cases h
    | ok u => rw [h1] at h; cases h; obtain ⟨a, _, b, c, _⟩ := sweepR_any h1 hi; exact ⟨a, b, c⟩

theorem run_inv : ∀ (ops : List Op) (s t : St) (out : List Bool), runOps step s ops = .ok (t, out) → Inv s → Inv t ∧ t.maxR = s.maxR ∧ t.maxW = s.maxW := by
  intro ops
  induction ops with
  | nil => intro s t out h hi; cases h; exact ⟨hi, rfl, rfl⟩
  | cons op ops ih =>
    intro s t out h hi
    unfold runOps at h
    cases h1 : step s op with
    | ub => rw [h1] at h; cases h
    | hang => rw [h1] at h; cases h
    | ok u =>
      obtain ⟨u, b⟩ := u
      rw [h1] at h
      simp only [Outcome.bind_ok] at h
      cases h2 : runOps step u ops with
      | ub => rw [h2] at h; cases h
      | hang => rw [h2] at h; cases h
      | ok v =>
        obtain ⟨v, os⟩ := v
        rw [h2] at h
        cases h
        obtain ⟨i1, m1, w1⟩ := step_inv h1 hi
        obtain ⟨i2, m2, w2⟩ := ih u _ os h2 i1
        exact ⟨i2, m2.trans m1, w2.trans w1⟩

/-- What can be read off the result of a run (for the concrete cases). -/
structure View where
  readers : List (Nat × Int)
  writers : List WE
  lost : List Nat
  results : List Bool
  deriving DecidableEq

/-- The readers, writers and lost queues after a run, and the results of its operations. -/
def view : Outcome (St × List Bool) → Option View
  | .ok (s, o) => some ⟨s.rs.map fun e => (e.f, e.id), s.ws, s.lost, o⟩
  | _ => none

/-- All hooks agree. -/
def yes : Hooks := ⟨true, true, true⟩

/-- **C47.** After every history of connections, shares, disconnections and rounds, no filter has more writers than its
maximum. -/
theorem writers_never_exceed {mr mw : Nat → Nat} {ops : List Op} {s : St} {out : List Bool} (h : runOps step (St.init mr mw) ops = .ok (s, out)) (f : Nat) :
    s.ws.countP (fun e => e.f = f) ≤ mw f := by
  obtain ⟨hi, _, hm⟩ := run_inv ops _ _ _ h (inv_init mr mw)
  have := hi.limW f
  rw [sizeW_count, hm] at this
  exact this

example : view (runOps step (St.init (fun _ => 5) (fun _ => 2)) [.connect 0 1 1 1 yes, .connect 0 1 2 2 yes, .connect 0 1 3 3 yes]) =
    some ⟨[(1, 1), (1, 2)], [⟨0, 1, 0⟩, ⟨0, 2, 1⟩], [], [true, true, false]⟩ := by decide +kernel

/-- **C47.** After every history a filter has at most one writer of each id and at most one reader of each id; every writer
has a queue of its own, which is there and was made for it. -/
theorem writers_own_queues {mr mw : Nat → Nat} {ops : List Op} {s : St} {out : List Bool} (h : runOps step (St.init mr mw) ops = .ok (s, out)) :
    (s.ws.Pairwise fun a b => ¬ (a.f = b.f ∧ a.id = b.id)) ∧ (s.rs.Pairwise fun a b => ¬ (a.f = b.f ∧ a.id = b.id)) ∧
    (∀ a ∈ s.ws, ∀ b ∈ s.ws, a.q = b.q → a = b) ∧ (∀ e ∈ s.ws, ∃ c, s.cell e.q = .live c e.f e.id) := by
  obtain ⟨hi, _⟩ := run_inv ops _ _ _ h (inv_init mr mw)
  exact ⟨hi.wKey, hi.rKey, fun a ha b hb => hi.wInj ha hb, hi.wCell⟩

example : view (runOps step (St.init (fun _ => 5) (fun _ => 5)) [.connect 0 1 1 1 yes, .connect 2 1 1 2 yes, .connect 0 3 1 1 yes, .connect 0 3 7 1 yes]) =
    some ⟨[(1, 1), (1, 2), (3, 1)], [⟨0, 1, 0⟩, ⟨2, 1, 1⟩, ⟨0, 7, 2⟩], [], [true, true, false, true]⟩ := by decide +kernel

/-- **C47.** After every history a queue counts as connected exactly when it has both a writer and a reader, and a queue is
still there exactly when it has one of them or was lost in a refused connection. Readers of different objects never share a
queue. -/
theorem queues_have_ends {mr mw : Nat → Nat} {ops : List Op} {s : St} {out : List Bool} (h : runOps step (St.init mr mw) ops = .ok (s, out)) (q : Nat) :
    ((∃ f w, s.cell q = .live true f w) ↔ (∃ e ∈ s.ws, e.q = q) ∧ ∃ e ∈ s.rs, ∃ o, e.obj = some o ∧ (s.rdr o).queue = some q) ∧
    ((∃ c f w, s.cell q = .live c f w) → (∃ e ∈ s.ws, e.q = q) ∨ (∃ e ∈ s.rs, ∃ o, e.obj = some o ∧ (s.rdr o).queue = some q) ∨ q ∈ s.lost) ∧
    ((∃ e ∈ s.ws, e.q = q) ∨ (∃ e ∈ s.rs, ∃ o, e.obj = some o ∧ (s.rdr o).queue = some q) → ∃ c f w, s.cell q = .live c f w) ∧
    (∀ a ∈ s.rs, ∀ b ∈ s.rs, ∀ o p, a.obj = some o → b.obj = some p → (s.rdr o).queue = some q → (s.rdr p).queue = some q → o = p) := by
  obtain ⟨hi, _⟩ := run_inv ops _ _ _ h (inv_init mr mw)
  have hR : hasR s q ↔ ∃ e ∈ s.rs, ∃ o, e.obj = some o ∧ (s.rdr o).queue = some q :=
    ⟨fun ⟨o, ⟨e, he, ho⟩, hq⟩ => ⟨e, he, o, ho, hq⟩, fun ⟨e, he, o, ho, hq⟩ => ⟨o, ⟨e, he, ho⟩, hq⟩⟩
  refine ⟨⟨fun ⟨f, w, hc⟩ => ?_, fun ⟨h1, h2⟩ => hi.both q h1 (hR.2 h2)⟩, fun ⟨c, f, w, hc⟩ => ?_, fun hor => ?_, ?_⟩
  · obtain ⟨h1, h2⟩ := hi.conn q f w hc; exact ⟨h1, hR.1 h2⟩
  · rcases hi.live q c f w hc with h | h | h
    · exact .inl h
    · exact .inr (.inl (hR.1 h))
    · exact .inr (.inr h)
  · rcases hor with ⟨e, he, rfl⟩ | h
    · obtain ⟨c, hc⟩ := hi.wCell e he; exact ⟨c, _, _, hc⟩
    · obtain ⟨o, ho, hq⟩ := hR.2 h; exact hi.rCell o ho q hq
  · intro a ha b hb o p ho hp hoq hpq
    exact hi.rInj o p q ⟨a, ha, ho⟩ ⟨b, hb, hp⟩ hoq hpq

/-- The queues seen in a run: flags of the first few (for the concrete cases). -/
def flags (n : Nat) : Outcome (St × List Bool) → Option (List Cell)
  | .ok (s, _) => some ((List.range n).map s.cell)
  | _ => none

example : flags 3 (runOps step (St.init (fun _ => 5) (fun _ => 5)) [.connect 0 1 1 1 yes, .connect 0 1 2 2 yes, .connect 0 1 3 3 yes,
    .disconnectW 0 2 true, .disconnectR 1 3 true, .disconnectW 0 3 true]) = some [.live true 0 1, .live false 0 2, .freed] := by decide +kernel

/-! ## No undefined behaviour -/

/-- The operations whose callers behave: no filter is connected to itself and no reader configuration is refused. -/
def Tame : Op → Prop
  | .connect w r _ _ a => w ≠ r ∧ a.rcfg = true
  | _ => True

theorem step_safe {s : St} {op : Op} (hi : Inv s) (hn : NoNull s) (ht : Tame op) : ∃ t b, step s op = .ok (t, b) ∧ NoNull t := by
  cases op with
  | connect w r wid rid a =>
    obtain ⟨t, b, h, hc⟩ := connect_ok hi wid rid a ht.1
    refine ⟨t, b, h, ?_⟩
    rcases hc with ⟨_, rfl, _⟩ | ⟨_, rfl, _⟩ | ⟨_, rfl, _⟩ | ⟨_, _, ha, _⟩
    · intro e he
      rcases List.mem_append.1 (show e ∈ s.rs ++ [_] from he) with he | he
      · exact hn e he
      · rw [List.mem_singleton] at he; subst he; intro h; cases h
    · exact hn
    · exact hn
    · have := ht.2; rw [ha] at this; cases this
  | share f g gid fid rcfg =>
    obtain ⟨t, b, h, _⟩ := share_ok hi f g gid fid rcfg (fun e he _ => hn e he) (fun e he _ => hn e he)
    exact ⟨t, b, h, (share_inv h hi).2.2.2.2 hn⟩
  | disconnectW f id d =>
    obtain ⟨t, b, h1, _, _, h4, _⟩ := disconnectWriter_ok hi f id d
    exact ⟨t, b, h1, fun e he => hn e (by rw [← h4]; exact he)⟩
  | disconnectR f id d =>
    have hd : ∃ t b, disconnectReader s f id d = .ok (t, b) := by
      cases hf : findR s f id with
      | none => exact ⟨s, true, by unfold disconnectReader; rw [hf]⟩
      | some e =>
        obtain ⟨hem, hef, heid⟩ := findR_some hf
        obtain ⟨f', id', ob⟩ := e
        simp only at hef heid
        subst hef heid
        cases ob with
        | none => exact absurd rfl (hn _ hem)
        | some o => obtain ⟨t, b, h, _⟩ := disconnectReader_ok hi hem d; exact ⟨t, b, h⟩
    obtain ⟨t, b, h⟩ := hd
    refine ⟨t, b, h, fun e he => ?_⟩
    rcases (disconnectReader_any h hi).2.1 with hr | hr
    · rw [hr] at he; exact hn e (List.mem_filter.1 he).1
    · rw [hr] at he; exact hn e he
  | roundW f =>
    obtain ⟨t, h1, _, _, h4, _⟩ := sweepW_ok hi f
    exact ⟨t, true, by simp only [step, h1, Outcome.map_ok], fun e he => hn e (by rw [← h4]; exact he)⟩
  | roundR f strict =>
    obtain ⟨t, h1, _, h3, _⟩ := sweepR_ok hi f strict (fun _ e he _ => hn e he)
    exact ⟨t, true, by simp only [step, h1, Outcome.map_ok], fun e he => hn e ((h3 e).1 he).1⟩

/-- **C47.** No history of such operations, of any length, in any order, with any answers of the other hooks, touches a queue
or reader that is gone or dereferences a null pointer. -/
theorem history_safe (mr mw : Nat → Nat) (ops : List Op) (h : ∀ op ∈ ops, Tame op) : ∃ s out, runOps step (St.init mr mw) ops = .ok (s, out) := by
  have key : ∀ (ops : List Op) (s : St), (∀ op ∈ ops, Tame op) → Inv s → NoNull s → ∃ t out, runOps step s ops = .ok (t, out) := by
    intro ops
    induction ops with
    | nil => intro s _ _ _; exact ⟨s, [], rfl⟩
    | cons op ops ih =>
      intro s ht hi hn
      obtain ⟨t, b, h1, h2⟩ := step_safe hi hn (ht op (List.mem_cons_self ..))
      obtain ⟨u, out, h3⟩ := ih t (fun o ho => ht o (List.mem_cons_of_mem _ ho)) (step_inv h1 hi).1 h2
      exact ⟨u, b :: out, by simp [runOps, h1, h3]⟩
  exact key ops _ h (inv_init mr mw) (fun e he => by cases he)

example : view (runOps step (St.init (fun _ => 5) (fun _ => 5)) [.connect 0 1 1 1 yes, .share 1 2 4 1 true, .disconnectR 1 1 true, .disconnectW 0 1 true,
    .roundR 2 true, .roundW 0, .disconnectR 2 4 true]) = some ⟨[], [], [], [true, true, true, true, true, true, true]⟩ := by decide +kernel

/-- **C47.** Connecting a filter to itself takes a mutex the caller already holds. -/
theorem self_connect_hangs (s : St) (f : Nat) (wid rid : Int) (a : Hooks) : connect s f f wid rid a = .hang := by
  unfold connect; rw [if_pos rfl]

/-- **C47.** When the reading filter refuses the configuration, the entry stays as a null pointer: the slot is taken, a queue
is lost, and disconnecting that reader, checking it for a share, or a round with a frame time is undefined behaviour. -/
theorem refused_reader_leaves_null :
    (let ops : List Op := [.connect 0 1 1 1 ⟨true, true, false⟩]
     view (runOps step (St.init (fun _ => 1) (fun _ => 5)) ops) = some ⟨[(1, 1)], [], [0], [false]⟩ ∧
     view (runOps step (St.init (fun _ => 1) (fun _ => 5)) (ops ++ [.connect 0 1 1 1 yes])) = some ⟨[(1, 1)], [], [1, 0], [false, false]⟩ ∧
     view (runOps step (St.init (fun _ => 1) (fun _ => 5)) (ops ++ [.connect 0 1 1 2 yes])) = some ⟨[(1, 1)], [], [1, 0], [false, false]⟩ ∧
     runOps step (St.init (fun _ => 1) (fun _ => 5)) (ops ++ [.disconnectR 1 1 true]) = .ub ∧
     runOps step (St.init (fun _ => 1) (fun _ => 5)) (ops ++ [.share 1 2 1 1 true]) = .ub ∧
     runOps step (St.init (fun _ => 1) (fun _ => 5)) (ops ++ [.roundR 1 true]) = .ub) := by
  refine ⟨by decide +kernel, by decide +kernel, by decide +kernel, rfl, rfl, rfl⟩

/-! ## Readers -/

theorem countP_filter_le {α : Type} (l : List α) (p q : α → Bool) : (l.filter p).countP q ≤ l.countP q := List.Sublist.countP_le List.filter_sublist

/-- **C47.** In every history without shares, no filter has more readers than its maximum. -/
theorem readers_never_exceed {mr mw : Nat → Nat} {ops : List Op} {s : St} {out : List Bool} (h : runOps step (St.init mr mw) ops = .ok (s, out))
    (hs : ∀ f g gid fid c, Op.share f g gid fid c ∉ ops) (f : Nat) : s.rs.countP (fun e => e.f = f) ≤ mr f := by
  have one : ∀ (s t : St) (op : Op) (b : Bool), step s op = .ok (t, b) → (∀ f g gid fid c, Op.share f g gid fid c ≠ op) → Inv s →
      (∀ f, s.rs.countP (fun e => e.f = f) ≤ s.maxR f) → ∀ f, t.rs.countP (fun e => e.f = f) ≤ t.maxR f := by
    intro s t op b h hns hi hc f
    cases op with
    | connect w r wid rid a =>
      have hm := (connect_maxes h hi).1
      by_cases hne : w = r
      · simp only [step] at h; unfold connect at h; rw [if_pos hne] at h; cases h
      · obtain ⟨t', b', e, hcs⟩ := connect_ok hi wid rid a hne
        simp only [step] at h
        rw [e] at h; cases h
        rw [hm]
        rcases hcs with ⟨_, rfl, _, _, _, h6, _⟩ | ⟨_, rfl, _⟩ | ⟨_, rfl, _⟩ | ⟨_, rfl, _, _, _, h6, _⟩
        · show (s.rs ++ [_]).countP _ ≤ _
          rw [List.countP_append]
          rw [sizeR_count] at h6
          have := hc f
          by_cases hf : r = f
          · subst hf; simp; omega
          · simp [hf]; exact this
        · exact hc f
        · exact hc f
        · show (s.rs ++ [_]).countP _ ≤ _
          rw [List.countP_append]
          rw [sizeR_count] at h6
          have := hc f
          by_cases hf : r = f
          · subst hf; simp; omega
          · simp [hf]; exact this
    | share f g gid fid c => exact absurd rfl (hns f g gid fid c)
    | disconnectW g id d =>
      obtain ⟨t', b', h1, _, _, h4, _, _, h3, _⟩ := disconnectWriter_ok hi g id d
      simp only [step] at h
      rw [h1] at h; cases h
      rw [h3, h4]; exact hc f
    | disconnectR g id d =>
      obtain ⟨_, hr, _, hm, _⟩ := disconnectReader_any h hi
      rw [hm]
      rcases hr with hr | hr
      · rw [hr]; exact Nat.le_trans (countP_filter_le _ _ _) (hc f)
      · rw [hr]; exact hc f
    | roundW g =>
      obtain ⟨t', h1, _, _, h4, _, _, h3, _⟩ := sweepW_ok hi g
      simp only [step] at h
      rw [h1] at h; cases h
      rw [h3, h4]; exact hc f
    | roundR g strict =>
      simp only [step] at h
      cases h1 : sweepR s g strict with
      | ub => rw [h1] at h; cases h
      | hang => rw [h1] at h; cases h
      | ok u =>
        rw [h1] at h; cases h
        obtain ⟨_, _, hm, _, _, _, hsub⟩ := sweepR_any h1 hi
        rw [hm]; exact Nat.le_trans (List.Sublist.countP_le hsub) (hc f)
  have key : ∀ (ops : List Op) (s t : St) (out : List Bool), runOps step s ops = .ok (t, out) → (∀ f g gid fid c, Op.share f g gid fid c ∉ ops) → Inv s →
      (∀ f, s.rs.countP (fun e => e.f = f) ≤ s.maxR f) → ∀ f, t.rs.countP (fun e => e.f = f) ≤ t.maxR f := by
    intro ops
    induction ops with
    | nil => intro s t out h _ _ hc; cases h; exact hc
    | cons op ops ih =>
      intro s t out h hns hi hc
      unfold runOps at h
      cases h1 : step s op with
      | ub => rw [h1] at h; cases h
      | hang => rw [h1] at h; cases h
      | ok u =>
        obtain ⟨u, b⟩ := u
        rw [h1] at h
        simp only [Outcome.bind_ok] at h
        cases h2 : runOps step u ops with
        | ub => rw [h2] at h; cases h
        | hang => rw [h2] at h; cases h
        | ok v =>
          obtain ⟨v, os⟩ := v
          rw [h2] at h
          cases h
          exact ih u _ os h2 (fun f g gid fid c hm => hns f g gid fid c (List.mem_cons_of_mem _ hm)) (step_inv h1 hi).1
            (one s u op b h1 (fun f g gid fid c he => hns f g gid fid c (by rw [he]; exact List.mem_cons_self ..)) hi hc)
  have := key ops _ _ _ h hs (inv_init mr mw) (fun _ => Nat.zero_le _) f
  rw [(run_inv ops _ _ _ h (inv_init mr mw)).2.1] at this
  exact this

example : view (runOps step (St.init (fun _ => 1) (fun _ => 5)) [.connect 0 1 1 1 yes, .connect 0 1 2 2 yes]) = some ⟨[(1, 1)], [⟨0, 1, 0⟩], [1], [true, false]⟩ := by
  decide +kernel

/-- **C47.** `shareReader` does not look at the maximum: a filter that allows one reader gets two. -/
theorem share_exceeds_maximum :
    view (runOps step (St.init (fun _ => 1) (fun _ => 5)) [.connect 0 1 1 1 yes, .connect 0 2 2 2 yes, .share 1 2 3 1 true]) =
      some ⟨[(1, 1), (2, 2), (2, 3)], [⟨0, 1, 0⟩, ⟨0, 2, 1⟩], [], [true, true, true]⟩ := by decide +kernel

/-! ## What `connect` does -/

/-- **C47.** In every reachable state `connect` succeeds exactly when the writing filter has room and no writer of that id, the
reading filter has room and no reader of that id, and all hooks agree; then there is one more writer and one more reader, joined
by a new connected queue, and nothing else has changed. -/
theorem connect_succeeds_iff {mr mw : Nat → Nat} {ops : List Op} {s : St} {out : List Bool} (h : runOps step (St.init mr mw) ops = .ok (s, out))
    {w r : Nat} (hne : w ≠ r) (wid rid : Int) (a : Hooks) :
    ∃ t b, connect s w r wid rid a = .ok (t, b) ∧
      (b = true ↔ s.ws.countP (fun e => e.f = w) < mw w ∧ (∀ e ∈ s.ws, ¬ (e.f = w ∧ e.id = wid)) ∧
        s.rs.countP (fun e => e.f = r) < mr r ∧ (∀ e ∈ s.rs, ¬ (e.f = r ∧ e.id = rid)) ∧ a.wcfg = true ∧ a.alloc = true ∧ a.rcfg = true) ∧
      (b = true → ∃ q o, s.cell q = .none ∧ (∀ e ∈ s.rs, e.obj ≠ some o) ∧ t.ws = s.ws ++ [⟨w, wid, q⟩] ∧ t.rs = s.rs ++ [⟨r, rid, some o⟩] ∧
        t.cell q = .live true w wid ∧ (t.rdr o).queue = some q ∧ (t.rdr o).filters = [r] ∧ (∀ x, x ≠ q → t.cell x = s.cell x) ∧
        (∀ x, x ≠ o → t.rdr x = s.rdr x) ∧ t.lost = s.lost) := by
  obtain ⟨hi, hmr, hmw⟩ := run_inv ops _ _ _ h (inv_init mr mw)
  obtain ⟨t, b, hc, hcs⟩ := connect_ok hi wid rid a hne
  have er : s.maxR r = mr r := by rw [hmr]; rfl
  have ew : s.maxW w = mw w := by rw [hmw]; rfl
  rw [er, ew, sizeW_count, sizeR_count] at hcs
  refine ⟨t, b, hc, ?_, ?_⟩
  · rcases hcs with ⟨hb, _, h1, h2, h3, h4, h5⟩ | ⟨hb, _, h1⟩ | ⟨hb, _, _, _, _, _, h1⟩ | ⟨hb, _, h1, _⟩
    · rw [hb, h3]
      exact ⟨fun _ => ⟨h1, findW_none h2, h4, findR_none h5, rfl, rfl, rfl⟩, fun _ => rfl⟩
    · rw [hb]
      refine ⟨(fun h => by cases h), fun ⟨g1, g2, g3, g4, g5, g6, g7⟩ => ?_⟩
      rcases h1 with h1 | h1 | h1 | h1 | h1
      · omega
      · obtain ⟨e, he, hk⟩ := findW_iff.1 h1; exact absurd hk (g2 e he)
      · rw [g5] at h1; cases h1
      · rw [g6] at h1; cases h1
      · obtain ⟨e, he, hk⟩ := findR_iff.1 h1; exact absurd hk (g4 e he)
    · rw [hb]
      refine ⟨(fun h => by cases h), fun ⟨g1, g2, g3, g4, g5, g6, g7⟩ => ?_⟩
      rcases h1 with h1 | h1
      · omega
      · obtain ⟨e, he, hk⟩ := findR_iff.1 h1; exact absurd hk (g4 e he)
    · rw [hb, h1]
      exact ⟨(fun h => by cases h), fun ⟨_, _, _, _, _, _, g7⟩ => g7⟩
  · intro hb
    rcases hcs with ⟨_, ht, _⟩ | ⟨hb', _⟩ | ⟨hb', _⟩ | ⟨hb', _⟩
    · refine ⟨s.nextQ, s.nextR, hi.freshQ _ (Nat.le_refl _), ?_, by rw [ht]; rfl, by rw [ht]; rfl, by rw [ht]; exact upd_same _ _ _, ?_, ?_, ?_, ?_, by rw [ht]; rfl⟩
      · intro e he ho; exact Nat.lt_irrefl _ (hi.freshR s.nextR ⟨e, he, ho⟩)
      · rw [ht]; show (upd s.rdr _ _ _).queue = _; rw [upd_same]
      · rw [ht]; show (upd s.rdr _ _ _).filters = _; rw [upd_same]
      · intro x hx; rw [ht]; show upd (upd s.cell _ _) _ _ x = _; rw [upd_other _ _ hx, upd_other _ _ hx]
      · intro x hx; rw [ht]; exact upd_other _ _ hx
    · rw [hb'] at hb; cases hb
    · rw [hb'] at hb; cases hb
    · rw [hb'] at hb; cases hb

/-- **C47.** A refused `connect` leaves all writers and all queues in use as they were, and all readers too unless the reading
filter refused the configuration, when a null entry is added. At most one queue, made in that call, is lost. -/
theorem connect_refused {mr mw : Nat → Nat} {ops : List Op} {s t : St} {out : List Bool} {w r : Nat} {wid rid : Int} {a : Hooks}
    (hc : connect s w r wid rid a = .ok (t, false)) (h : runOps step (St.init mr mw) ops = .ok (s, out)) :
    t.ws = s.ws ∧ t.rdr = s.rdr ∧ (∀ q, s.cell q ≠ .none → t.cell q = s.cell q) ∧ (t.rs = s.rs ∨ a.rcfg = false ∧ t.rs = s.rs ++ [⟨r, rid, none⟩]) ∧
    (t.lost = s.lost ∧ t.rs = s.rs ∧ t.cell = s.cell ∨ ∃ q, t.lost = q :: s.lost ∧ s.cell q = .none ∧ t.cell q = .live false w wid) := by
  obtain ⟨hi, _⟩ := run_inv ops _ _ _ h (inv_init mr mw)
  by_cases hne : w = r
  · unfold connect at hc; rw [if_pos hne] at hc; cases hc
  obtain ⟨t', b, h1, hcs⟩ := connect_ok hi wid rid a hne
  rw [h1] at hc; cases hc
  have hn := hi.freshQ s.nextQ (Nat.le_refl _)
  have hcell : ∀ q, s.cell q ≠ .none → upd s.cell s.nextQ (.live false w wid) q = s.cell q := by
    intro q hq; apply upd_other; rintro rfl; exact hq hn
  rcases hcs with ⟨hb, _⟩ | ⟨_, rfl, _⟩ | ⟨_, rfl, _⟩ | ⟨_, rfl, ha, _⟩
  · cases hb
  · exact ⟨rfl, rfl, fun _ _ => rfl, .inl rfl, .inl ⟨rfl, rfl, rfl⟩⟩
  · exact ⟨rfl, rfl, hcell, .inl rfl, .inr ⟨s.nextQ, rfl, hn, upd_same _ _ _⟩⟩
  · exact ⟨rfl, rfl, hcell, .inr ⟨by rw [ha], rfl⟩, .inr ⟨s.nextQ, rfl, hn, upd_same _ _ _⟩⟩

example : view (runOps step (St.init (fun _ => 5) (fun _ => 5)) [.connect 0 1 1 1 yes, .connect 2 1 1 1 yes, .connect 0 1 1 2 yes, .connect 0 3 2 1 ⟨true, false, true⟩]) =
    some ⟨[(1, 1)], [⟨0, 1, 0⟩], [], [true, false, false, false]⟩ := by decide +kernel

/-- **C47.** A reader whose writer went away but whose filter has had no round yet cannot be connected again: the call is refused
and its queue is lost. After the round it can. -/
theorem reconnect_before_round_loses_queue :
    view (runOps step (St.init (fun _ => 5) (fun _ => 5)) [.connect 0 1 1 1 yes, .disconnectW 0 1 true, .connect 0 1 1 1 yes]) =
      some ⟨[(1, 1)], [], [1], [true, true, false]⟩ ∧
    view (runOps step (St.init (fun _ => 5) (fun _ => 5)) [.connect 0 1 1 1 yes, .disconnectW 0 1 true, .roundR 1 false, .connect 0 1 1 1 yes]) =
      some ⟨[(1, 1)], [⟨0, 1, 1⟩], [], [true, true, true, true]⟩ := by
  constructor <;> decide +kernel

/-! ## Rounds -/

/-- **C47.** A round of the writing side removes exactly the writers of that filter whose queue has no reader left. -/
theorem roundW_removes {mr mw : Nat → Nat} {ops : List Op} {s : St} {out : List Bool} (h : runOps step (St.init mr mw) ops = .ok (s, out)) (f : Nat) :
    ∃ t, step s (.roundW f) = .ok (t, true) ∧ t.rs = s.rs ∧ t.rdr = s.rdr ∧
      ∀ e, e ∈ t.ws ↔ e ∈ s.ws ∧ (e.f = f → ∃ x ∈ s.rs, ∃ o, x.obj = some o ∧ (s.rdr o).queue = some e.q) := by
  obtain ⟨hi, _⟩ := run_inv ops _ _ _ h (inv_init mr mw)
  obtain ⟨t, h1, _, h3, h4, h5, _⟩ := sweepW_ok hi f
  refine ⟨t, by simp only [step, h1, Outcome.map_ok], h4, h5, fun e => ?_⟩
  rw [h3]
  constructor
  · rintro ⟨a, b⟩; exact ⟨a, fun hf => by obtain ⟨o, ⟨x, hx, ho⟩, hq⟩ := b hf; exact ⟨x, hx, o, ho, hq⟩⟩
  · rintro ⟨a, b⟩; exact ⟨a, fun hf => by obtain ⟨x, hx, o, ho, hq⟩ := b hf; exact ⟨o, ⟨x, hx, ho⟩, hq⟩⟩

/-- **C47.** A round of the reading side removes exactly the readers of that filter whose queue has no writer left; null entries
stay. -/
theorem roundR_removes {mr mw : Nat → Nat} {ops : List Op} {s t : St} {out : List Bool} {f : Nat} {strict b : Bool}
    (hs : step s (.roundR f strict) = .ok (t, b)) (h : runOps step (St.init mr mw) ops = .ok (s, out)) :
    t.ws = s.ws ∧ ∀ e, e ∈ t.rs ↔ e ∈ s.rs ∧ (e.f = f → ∀ o, e.obj = some o → ∃ q, (s.rdr o).queue = some q ∧ ∃ x ∈ s.ws, x.q = q) := by
  obtain ⟨hi, _⟩ := run_inv ops _ _ _ h (inv_init mr mw)
  simp only [step] at hs
  cases h1 : sweepR s f strict with
  | ub => rw [h1] at hs; cases hs
  | hang => rw [h1] at hs; cases hs
  | ok u =>
    rw [h1] at hs; cases hs
    obtain ⟨_, h2, _, _, _, h3, _⟩ := sweepR_any h1 hi
    exact ⟨h3, h2⟩

example : view (runOps step (St.init (fun _ => 5) (fun _ => 5)) [.connect 0 1 1 1 yes, .connect 0 1 2 2 yes, .connect 0 3 3 1 yes, .disconnectR 1 2 true,
    .disconnectW 0 1 true, .roundW 0, .roundR 1 true]) = some ⟨[(3, 1)], [⟨0, 3, 2⟩], [], [true, true, true, true, true, true, true]⟩ := by decide +kernel

/-! ## Taking connections down -/

/-- **C47.** After every history, disconnecting a writer removes exactly that writer. -/
theorem disconnectW_removes {mr mw : Nat → Nat} {ops : List Op} {s : St} {out : List Bool} (h : runOps step (St.init mr mw) ops = .ok (s, out)) (f : Nat) (id : Int) (d : Bool) :
    ∃ t b, step s (.disconnectW f id d) = .ok (t, b) ∧ (∀ e, e ∈ t.ws ↔ e ∈ s.ws ∧ ¬ (e.f = f ∧ e.id = id)) ∧ t.rs = s.rs ∧ t.rdr = s.rdr ∧ t.lost = s.lost := by
  obtain ⟨hi, _⟩ := run_inv ops _ _ _ h (inv_init mr mw)
  obtain ⟨t, b, h1, _, h3, h4, h5, h6, _⟩ := disconnectWriter_ok hi f id d
  refine ⟨t, b, h1, fun e => ?_, h4, h5, h6⟩
  rw [h3]; simp only [List.mem_filter, decide_eq_true_eq]

/-- Every filter is registered with every reader it holds, once, and every reader held has a queue. -/
structure Reg (s : St) : Prop where
  reg : ∀ e ∈ s.rs, ∀ o, e.obj = some o → e.f ∈ (s.rdr o).filters ∧ (s.rdr o).queue ≠ none
  one : ∀ a ∈ s.rs, ∀ b ∈ s.rs, a.f = b.f → ∀ o, a.obj = some o → b.obj = some o → a = b

/-- No filter is given a second time a reader it already holds. -/
def Plain (s : St) : Op → Prop
  | .share f g _ fid _ => ∀ e ∈ s.rs, e.f = f ∧ e.id = fid → ∀ o, e.obj = some o → ∀ x ∈ s.rs, x.f = g → x.obj ≠ some o
  | _ => True

/-- The states reached when no filter is given a reader twice. -/
inductive Reach (mr mw : Nat → Nat) : St → Prop
  | init : Reach mr mw (St.init mr mw)
  | step {s t : St} {op : Op} {b : Bool} : Reach mr mw s → Plain s op → step s op = .ok (t, b) → Reach mr mw t

/-- Deleting a registered reader keeps the rest registered. -/
theorem deleteReader_reg {s : St} (hi : Inv s) (hr : Reg s) {o f : Nat} {id : Int} (he : (⟨f, id, some o⟩ : RE) ∈ s.rs) (d : Bool) {t : St} {b : Bool}
    (h : deleteReader s f id d = .ok (t, b)) : Reg t := by
  obtain ⟨t', h1, h2, h3, h4, h5, _, _, _, _, _, h6, h7⟩ := deleteReader_ok hi he d
  rw [h1] at h; cases h
  have hm : ∀ e, e ∈ t.rs ↔ e ∈ s.rs ∧ ¬ (e.f = f ∧ e.id = id) := by intro e; rw [h3]; exact filter_mem_iff e
  refine ⟨fun e hem p hp => ?_, fun a ha b hb => hr.one a ((hm a).1 ha).1 b ((hm b).1 hb).1⟩
  obtain ⟨hes, hek⟩ := (hm e).1 hem
  obtain ⟨g1, g2⟩ := hr.reg e hes p hp
  by_cases hpo : p = o
  · subst hpo
    have hef : e.f ≠ f := fun hf => hek (by have := hr.one e hes _ he hf p hp rfl; rw [this]; exact ⟨rfl, rfl⟩)
    obtain ⟨t1, b1, q1, q2⟩ := h7 ⟨e, (filter_mem_iff e).2 ⟨hes, hek⟩, hp⟩
    obtain ⟨t2, b2, k1, _, _, _, _, _, _, _, _, _, _, k2⟩ := rDisconnect_ok hi (o := p) ⟨_, he, rfl⟩ f
    rw [k1] at q1; cases q1
    obtain ⟨k3, k4, _⟩ := k2 (hr.reg _ he p rfl).1
    have hin : e.f ∈ (t1.rdr p).filters := by rw [k3]; simp [g1, hef]
    rw [q2]
    refine ⟨hin, ?_⟩
    rw [(k4 (fun hnil => by rw [hnil] at hin; cases hin)).1]
    exact g2
  · rw [h5 p hpo]; exact ⟨g1, g2⟩

theorem sweepListR_reg {s : St} {strict : Bool} : ∀ (l : List RE) {t : St}, sweepListR s strict l = .ok t → Inv s → (∀ e ∈ l, e ∈ s.rs) →
    (l.Pairwise fun a b => ¬ (a.f = b.f ∧ a.id = b.id)) → Reg s → Reg t := by
  intro l
  induction l generalizing s with
  | nil => intro t h _ _ _ hr; cases h; exact hr
  | cons x l ih =>
    intro t h hi hl hp hr
    obtain ⟨hx, hpl⟩ := List.pairwise_cons.1 hp
    have hxm := hl x (List.mem_cons_self ..)
    obtain ⟨f, id, ob⟩ := x
    cases ob with
    | none =>
      unfold sweepListR at h
      cases strict with
      | true => rw [if_pos rfl] at h; cases h
      | false => rw [if_neg (by decide)] at h; exact ih h hi (fun e he => hl e (List.mem_cons_of_mem _ he)) hpl hr
    | some o =>
      obtain ⟨c, hc, _⟩ := rConnected_ok hi (o := o) ⟨_, hxm, rfl⟩
      unfold sweepListR at h
      rw [hc] at h
      simp only [Outcome.bind_ok] at h
      cases c with
      | true => rw [if_pos rfl] at h; exact ih h hi (fun e he => hl e (List.mem_cons_of_mem _ he)) hpl hr
      | false =>
        rw [if_neg (by decide)] at h
        obtain ⟨s1, e1, i1, r1, _⟩ := deleteReader_ok hi hxm true
        rw [e1] at h
        simp only [Outcome.bind_ok] at h
        refine ih h i1 (fun e he => ?_) hpl (deleteReader_reg hi hr hxm true e1)
        rw [r1, filter_mem_iff]
        exact ⟨hl e (List.mem_cons_of_mem _ he), fun h => hx e he ⟨h.1.symm, h.2.symm⟩⟩

/-- Disconnecting a registered reader takes its entry away and nothing else. -/
theorem disconnectReader_reg {s : St} (hi : Inv s) (hr : Reg s) {o f : Nat} {id : Int} (he : (⟨f, id, some o⟩ : RE) ∈ s.rs) (d : Bool) :
    ∃ t, disconnectReader s f id d = .ok (t, d) ∧ Reg t ∧ t.rs = s.rs.filter (fun e => ¬ (e.f = f ∧ e.id = id)) ∧ t.ws = s.ws ∧ t.lost = s.lost ∧
      (∀ e ∈ t.rs, ∀ p, e.obj = some p → (t.rdr p).queue = (s.rdr p).queue) ∧
      (∀ p, p ≠ o → t.rdr p = s.rdr p) ∧ (held t o → (t.rdr o).filters = (s.rdr o).filters.filter (· ≠ f)) := by
  have hfind := findR_of_mem hi he
  simp only at hfind
  obtain ⟨g1, g2⟩ := hr.reg _ he o rfl
  obtain ⟨t1, b1, e1, hi1, r1, w1, q1, l1, m1, n1, k1, j1, x1, y1⟩ := rDisconnect_ok hi (o := o) ⟨_, he, rfl⟩ f
  obtain ⟨y2, y3, y4⟩ := y1 g1
  have hb : b1 = true := by
    by_cases hnil : (t1.rdr o).filters = []
    · exact (y4 hnil).2.2 g2
    · exact (y3 hnil).2
  subst hb
  have hnf : f ∉ (t1.rdr o).filters := by rw [y2]; simp
  obtain ⟨t2, e2, hi2, r2, w2, p2, l2, m2, n2, k2, j2, x2, y5⟩ := deleteReader_ok hi1 (o := o) (f := f) (id := id) (by rw [r1]; exact he) d
  have hrs2 : t2.rs = s.rs.filter (fun e => ¬ (e.f = f ∧ e.id = id)) := by
    rw [r2]; show t1.rs.filter _ = s.rs.filter _; rw [r1]
  have hm : ∀ e, e ∈ t2.rs ↔ e ∈ s.rs ∧ ¬ (e.f = f ∧ e.id = id) := by intro e; rw [hrs2]; simp only [List.mem_filter, decide_eq_true_eq]
  have hq : ∀ e ∈ t2.rs, ∀ p, e.obj = some p → e.f ∈ (t2.rdr p).filters ∧ (t2.rdr p).queue = (s.rdr p).queue := by
    intro e hem p hp
    obtain ⟨hes, hek⟩ := (hm e).1 hem
    obtain ⟨u1, u2⟩ := hr.reg e hes p hp
    by_cases hpo : p = o
    · subst hpo
      have hef : e.f ≠ f := fun hf => hek (by have := hr.one e hes _ he hf p hp rfl; rw [this]; exact ⟨rfl, rfl⟩)
      have hin : e.f ∈ (t1.rdr p).filters := by rw [y2]; simp [u1, hef]
      obtain ⟨t3, b3, z1, z2⟩ := y5 ⟨e, (filter_mem_iff e).2 ⟨by rw [r1]; exact hes, hek⟩, hp⟩
      obtain ⟨t4, b4, v1, _, _, _, _, _, _, _, _, _, v2, _⟩ := rDisconnect_ok hi1 (o := p) ⟨_, (by rw [r1]; exact he), rfl⟩ f
      obtain ⟨rfl, _⟩ := v2 hnf
      rw [v1] at z1; cases z1
      rw [z2]
      exact ⟨hin, (y3 (fun hnil => by rw [hnil] at hin; cases hin)).1⟩
    · rw [p2 p hpo, q1 p hpo]; exact ⟨u1, rfl⟩
  refine ⟨t2, ?_, ⟨fun e hem p hp => ?_, fun a ha b hb => hr.one a ((hm a).1 ha).1 b ((hm b).1 hb).1⟩, hrs2, w2.trans w1, l2.trans l1, fun e he p hp => (hq e he p hp).2,
    fun p hp => (p2 p hp).trans (q1 p hp), ?_⟩
  · unfold disconnectReader
    rw [hfind]
    simp only
    rw [e1]
    simp only [Outcome.bind_ok]
    simp only [if_true]; exact e2
  · obtain ⟨a, b⟩ := hq e hem p hp
    refine ⟨a, ?_⟩
    rw [b]; exact (hr.reg e ((hm e).1 hem).1 p hp).2
  · rintro ⟨e, hem, hep⟩
    obtain ⟨hes, hek⟩ := (hm e).1 hem
    obtain ⟨t3, b3, z1, z2⟩ := y5 ⟨e, (filter_mem_iff e).2 ⟨by rw [r1]; exact hes, hek⟩, hep⟩
    obtain ⟨t4, b4, v1, _, _, _, _, _, _, _, _, _, v2, _⟩ := rDisconnect_ok hi1 (o := o) ⟨_, (by rw [r1]; exact he), rfl⟩ f
    obtain ⟨rfl, _⟩ := v2 hnf
    rw [v1] at z1; cases z1
    rw [z2, y2]

theorem reach_inv {mr mw : Nat → Nat} {s : St} (h : Reach mr mw s) : Inv s ∧ Reg s := by
  induction h with
  | init => exact ⟨inv_init mr mw, fun e he => by (cases he), fun e he => by (cases he)⟩
  | step hr hp hs ih =>
    rename_i s t op b
    obtain ⟨hi, hg⟩ := ih
    refine ⟨(step_inv hs hi).1, ?_⟩
    cases op with
    | connect w r wid rid a =>
      simp only [step] at hs
      by_cases hne : w = r
      · unfold connect at hs; rw [if_pos hne] at hs; cases hs
      obtain ⟨t', b', h1, hcs⟩ := connect_ok hi wid rid a hne
      rw [h1] at hs; cases hs
      rcases hcs with ⟨_, rfl, _⟩ | ⟨_, rfl, _⟩ | ⟨_, rfl, _⟩ | ⟨_, rfl, _⟩
      · have hrs : (connected s w r wid rid).rs = s.rs ++ [⟨r, rid, some s.nextR⟩] := rfl
        have hold : ∀ e ∈ s.rs, ∀ o, e.obj = some o → o ≠ s.nextR := fun e he o ho hn => Nat.lt_irrefl _ (hi.freshR s.nextR ⟨e, he, hn ▸ ho⟩)
        constructor
        · intro e he o ho
          show e.f ∈ (upd s.rdr s.nextR ⟨some s.nextQ, [r]⟩ o).filters ∧ (upd s.rdr s.nextR ⟨some s.nextQ, [r]⟩ o).queue ≠ none
          rw [hrs] at he
          rcases List.mem_append.1 he with he | he
          · rw [upd_other _ _ (hold e he o ho)]; exact hg.reg e he o ho
          · rw [List.mem_singleton] at he; subst he; cases ho
            rw [upd_same]; exact ⟨List.mem_singleton.2 rfl, fun h => by cases h⟩
        · intro a ha b hb hf o hao hbo
          rw [hrs] at ha hb
          rcases List.mem_append.1 ha with ha | ha <;> rcases List.mem_append.1 hb with hb | hb
          · exact hg.one a ha b hb hf o hao hbo
          · rw [List.mem_singleton] at hb; subst hb; cases hbo; exact absurd rfl (hold a ha _ hao)
          · rw [List.mem_singleton] at ha; subst ha; cases hao; exact absurd rfl (hold b hb _ hbo)
          · rw [List.mem_singleton] at ha hb; rw [ha, hb]
      · exact hg
      · exact ⟨hg.reg, hg.one⟩
      · constructor
        · intro e he o ho
          rcases List.mem_append.1 (show e ∈ s.rs ++ [_] from he) with he | he
          · exact hg.reg e he o ho
          · rw [List.mem_singleton] at he; subst he; cases ho
        · intro a ha b hb hf o hao hbo
          rcases List.mem_append.1 (show a ∈ s.rs ++ [_] from ha) with ha | ha <;> rcases List.mem_append.1 (show b ∈ s.rs ++ [_] from hb) with hb | hb
          · exact hg.one a ha b hb hf o hao hbo
          · rw [List.mem_singleton] at hb; subst hb; cases hbo
          · rw [List.mem_singleton] at ha; subst ha; cases hao
          · rw [List.mem_singleton] at ha hb; rw [ha, hb]
    | share f g gid fid rcfg =>
      simp only [step] at hs
      by_cases hn : ∃ e ∈ s.rs, (e.f = f ∧ e.id = fid ∨ e.f = g ∧ e.id = gid) ∧ e.obj = none
      · rw [(share_null hs hi hn).1]; exact hg
      obtain ⟨t', b', h1, h2⟩ := share_ok hi f g gid fid rcfg (fun e he hc h => hn ⟨e, he, .inl hc, h⟩) (fun e he hc h => hn ⟨e, he, .inr hc, h⟩)
      rw [h1] at hs; cases hs
      rcases h2 with ⟨_, rfl, _⟩ | ⟨_, hfg, _, _, _, o, ho, ⟨q, hoq, _⟩, hrs, _, _, _, _, _, _, hq, hfs, hrest⟩
      · exact hg
      · have hno := hp _ ho ⟨rfl, rfl⟩ o rfl
        have hom := hg.reg _ ho o rfl
        have hkeep : ∀ e ∈ (eraseR s g gid).rs, ∀ p, e.obj = some p → e.f ∈ (t.rdr p).filters ∧ (t.rdr p).queue ≠ none := by
          intro e he p hep
          obtain ⟨hes, _⟩ := (filter_mem_iff e).1 he
          obtain ⟨u1, u2⟩ := hg.reg e hes p hep
          by_cases hpo : p = o
          · subst hpo
            rw [hq, hfs]
            refine ⟨?_, u2⟩
            split
            · exact u1
            · exact List.mem_append_left _ u1
          · rw [hrest p hpo ⟨e, he, hep⟩]; exact ⟨u1, u2⟩
        constructor
        · intro e he p hep
          rw [hrs] at he
          rcases List.mem_append.1 he with he | he
          · exact hkeep e he p hep
          · rw [List.mem_singleton] at he; subst he; cases hep
            rw [hq, hfs]
            refine ⟨?_, hom.2⟩
            split
            · assumption
            · exact List.mem_append_right _ (List.mem_singleton.2 rfl)
        · intro a ha b hb hf p hap hbp
          rw [hrs] at ha hb
          rcases List.mem_append.1 ha with ha | ha <;> rcases List.mem_append.1 hb with hb | hb
          · exact hg.one a ((filter_mem_iff a).1 ha).1 b ((filter_mem_iff b).1 hb).1 hf p hap hbp
          · rw [List.mem_singleton] at hb; subst hb; cases hbp; exact absurd hap (hno a ((filter_mem_iff a).1 ha).1 hf)
          · rw [List.mem_singleton] at ha; subst ha; cases hap; exact absurd hbp (hno b ((filter_mem_iff b).1 hb).1 hf.symm)
          · rw [List.mem_singleton] at ha hb; rw [ha, hb]
    | disconnectW f id d =>
      obtain ⟨t', b', h1, _, _, h4, h5, _⟩ := disconnectWriter_ok hi f id d
      simp only [step] at hs
      rw [h1] at hs; cases hs
      exact ⟨by rw [h4, h5]; exact hg.reg, by rw [h4]; exact hg.one⟩
    | disconnectR f id d =>
      simp only [step] at hs
      cases hf : findR s f id with
      | none => unfold disconnectReader at hs; rw [hf] at hs; cases hs; exact hg
      | some e =>
        obtain ⟨hem, hef, heid⟩ := findR_some hf
        obtain ⟨f', id', ob⟩ := e
        simp only at hef heid
        subst hef heid
        cases ob with
        | none => unfold disconnectReader at hs; rw [hf] at hs; cases hs
        | some o =>
          obtain ⟨t', h1, h2, _⟩ := disconnectReader_reg hi hg hem d
          rw [h1] at hs; cases hs; exact h2
    | roundW f =>
      obtain ⟨t', h1, _, _, h4, h5, _⟩ := sweepW_ok hi f
      simp only [step] at hs
      rw [h1] at hs; cases hs
      exact ⟨by rw [h4, h5]; exact hg.reg, by rw [h4]; exact hg.one⟩
    | roundR f strict =>
      simp only [step] at hs
      cases h1 : sweepR s f strict with
      | ub => rw [h1] at hs; cases hs
      | hang => rw [h1] at hs; cases hs
      | ok u =>
        rw [h1] at hs; cases hs
        exact sweepListR_reg _ h1 hi (fun e he => (List.mem_filter.1 he).1) (hi.rKey.filter _) hg

/-- **C47.** When no filter is given a reader twice, disconnecting a reader always succeeds (it answers what the filter's own hook
answers), takes exactly that entry away, and leaves everybody else's reader on its queue. -/
theorem disconnectR_removes {mr mw : Nat → Nat} {s : St} (h : Reach mr mw s) {f : Nat} {id : Int} {o : Nat} (he : (⟨f, id, some o⟩ : RE) ∈ s.rs) (d : Bool) :
    ∃ t, step s (.disconnectR f id d) = .ok (t, d) ∧ t.rs = s.rs.filter (fun e => ¬ (e.f = f ∧ e.id = id)) ∧ t.ws = s.ws ∧ t.lost = s.lost ∧
      (∀ e ∈ t.rs, ∀ p, e.obj = some p → (t.rdr p).queue = (s.rdr p).queue) := by
  obtain ⟨hi, hg⟩ := reach_inv h
  obtain ⟨t, h1, _, h3, h4, h5, h6, _⟩ := disconnectReader_reg hi hg he d
  exact ⟨t, h1, h3, h4, h5, h6⟩

example : Reach (fun _ => 5) (fun _ => 5) (St.init (fun _ => 5) (fun _ => 5)) := .init

example : view (runOps step (St.init (fun _ => 5) (fun _ => 5)) [.connect 0 1 1 1 yes, .share 1 2 4 1 true, .share 2 3 5 4 true, .disconnectR 1 1 true]) =
    some ⟨[(2, 4), (3, 5)], [⟨0, 1, 0⟩], [], [true, true, true, true]⟩ := by decide +kernel

/-- **C47.** A filter given the same reader twice can disconnect only one of the two: the other one stays. -/
theorem shared_twice_stays :
    view (runOps step (St.init (fun _ => 5) (fun _ => 5)) [.connect 0 1 1 1 yes, .share 1 2 1 1 true, .share 1 2 2 1 true, .disconnectR 2 1 true, .disconnectR 2 2 true]) =
      some ⟨[(1, 1), (2, 2)], [⟨0, 1, 0⟩], [], [true, true, true, true, false]⟩ := by decide +kernel

/-- **C47.** Making a connection and taking both ends down, in either order, leaves all writers, all readers and all other queues
as they were; the queue made for it is gone. -/
theorem connect_disconnect {mr mw : Nat → Nat} {s t : St} {w r : Nat} {wid rid : Int} {a : Hooks} (hc : step s (.connect w r wid rid a) = .ok (t, true))
    (h : Reach mr mw s) (d e : Bool) :
    ∃ u1 u2 v1 v2,
      step t (.disconnectW w wid d) = .ok (u1, d) ∧ step u1 (.disconnectR r rid e) = .ok (u2, e) ∧
      step t (.disconnectR r rid e) = .ok (v1, e) ∧ step v1 (.disconnectW w wid d) = .ok (v2, d) ∧
      u2.ws = s.ws ∧ u2.rs = s.rs ∧ v2.ws = s.ws ∧ v2.rs = s.rs ∧ u2.lost = s.lost ∧ v2.lost = s.lost ∧
      (∀ x ∈ s.rs, ∀ p, x.obj = some p → (u2.rdr p).queue = (s.rdr p).queue ∧ (v2.rdr p).queue = (s.rdr p).queue) ∧
      ∀ q, (⟨w, wid, q⟩ : WE) ∈ t.ws → (¬ ∃ c f x, u2.cell q = .live c f x) ∧ (¬ ∃ c f x, v2.cell q = .live c f x) := by
  obtain ⟨hi, hg⟩ := reach_inv h
  have ht : Reach mr mw t := .step (op := .connect w r wid rid a) h trivial hc
  obtain ⟨hit, hgt⟩ := reach_inv ht
  have hc' := hc
  simp only [step] at hc'
  by_cases hne : w = r
  · unfold connect at hc'; rw [if_pos hne] at hc'; cases hc'
  obtain ⟨t', b', h1, hcs⟩ := connect_ok hi wid rid a hne
  rw [h1] at hc'; cases hc'
  rcases hcs with ⟨_, h2, _, h3, _, _, h4⟩ | ⟨hb, _⟩ | ⟨hb, _⟩ | ⟨hb, _⟩
  · have hws : t.ws = s.ws ++ [⟨w, wid, s.nextQ⟩] := by rw [h2]; rfl
    have hrs : t.rs = s.rs ++ [⟨r, rid, some s.nextR⟩] := by rw [h2]; rfl
    have hl : t.lost = s.lost := by rw [h2]; rfl
    have fw : t.ws.filter (fun e => ¬ (e.f = w ∧ e.id = wid)) = s.ws := by
      rw [hws, List.filter_append]
      rw [List.filter_eq_self.2 fun x hx => decide_eq_true (findW_none h3 x hx)]
      simp
    have fr : t.rs.filter (fun e => ¬ (e.f = r ∧ e.id = rid)) = s.rs := by
      rw [hrs, List.filter_append]
      rw [List.filter_eq_self.2 fun x hx => decide_eq_true (findR_none h4 x hx)]
      simp
    have wmem : ∃ e ∈ t.ws, e.f = w ∧ e.id = wid := ⟨⟨w, wid, s.nextQ⟩, by rw [hws]; simp, rfl, rfl⟩
    have rmem : (⟨r, rid, some s.nextR⟩ : RE) ∈ t.rs := by rw [hrs]; simp
    -- writer first
    obtain ⟨u1, b1, a1, a2, a3, a4, a5, a6, _, _, _, _, a7⟩ := disconnectWriter_ok hit w wid d
    rw [if_pos wmem] at a7
    subst a7
    have ru1 : Reach mr mw u1 := .step (op := .disconnectW w wid b1) ht trivial a1
    obtain ⟨u2, c1, c2, c3, c4, c5⟩ := disconnectR_removes ru1 (f := r) (id := rid) (o := s.nextR) (by rw [a4]; exact rmem) e
    -- reader first
    obtain ⟨v1, d1, d2, d3, d4, d5⟩ := disconnectR_removes ht rmem e
    have rv1 : Reach mr mw v1 := .step (op := .disconnectR r rid e) ht trivial d1
    obtain ⟨v2, b2, e1, e2, e3, e4, e5, e6, _, _, _, _, e7⟩ := disconnectWriter_ok (reach_inv rv1).1 w wid b1
    rw [if_pos (by rw [d3]; exact wmem)] at e7
    subst e7
    have hu2 : Inv u2 := (step_inv c1 (step_inv (op := .disconnectW w wid b2) a1 hit).1).1
    have f1 : u2.ws = s.ws := by rw [c3, a3]; exact fw
    have f2 : u2.rs = s.rs := by rw [c2, a4]; exact fr
    have f3 : v2.ws = s.ws := by rw [e3, d3]; exact fw
    have f4 : v2.rs = s.rs := by rw [e4, d2]; exact fr
    have f5 : u2.lost = s.lost := by rw [c4, a6, hl]
    have f6 : v2.lost = s.lost := by rw [e6, d4, hl]
    have hold : ∀ x ∈ s.rs, ∀ p, x.obj = some p → t.rdr p = s.rdr p := by
      intro x hx p hp
      have : p ≠ s.nextR := fun hn => Nat.lt_irrefl _ (hi.freshR s.nextR ⟨x, hx, hn ▸ hp⟩)
      rw [h2]; exact upd_other _ _ this
    have f7 : ∀ x ∈ s.rs, ∀ p, x.obj = some p → (u2.rdr p).queue = (s.rdr p).queue := by
      intro x hx p hp
      rw [c5 x (by rw [f2]; exact hx) p hp, a5, hold x hx p hp]
    have f8 : ∀ x ∈ s.rs, ∀ p, x.obj = some p → (v2.rdr p).queue = (s.rdr p).queue := by
      intro x hx p hp
      rw [e5, d5 x (by rw [d2, fr]; exact hx) p hp, hold x hx p hp]
    have hout : ∀ x : St, Inv x → x.ws = s.ws → x.rs = s.rs → x.lost = s.lost → (∀ e ∈ s.rs, ∀ p, e.obj = some p → (x.rdr p).queue = (s.rdr p).queue) →
        ¬ ∃ c f y, x.cell s.nextQ = .live c f y := by
      rintro x hx x1 x2 x3 x4 ⟨c, f, y, hcl⟩
      have hq := hi.freshQ s.nextQ (Nat.le_refl _)
      rcases hx.live _ c f y hcl with ⟨e, he, heq⟩ | ⟨o, ⟨e, he, ho⟩, hoq⟩ | hlo
      · rw [x1] at he
        obtain ⟨c', hc'⟩ := hi.wCell e he
        rw [heq, hq] at hc'; cases hc'
      · rw [x2] at he
        rw [x4 e he o ho] at hoq
        obtain ⟨c', f', y', hc'⟩ := hi.rCell o ⟨e, he, ho⟩ _ hoq
        rw [hq] at hc'; cases hc'
      · rw [x3] at hlo
        exact Nat.lt_irrefl _ (hi.old _ hlo)
    refine ⟨u1, u2, v1, v2, a1, c1, d1, e1, f1, f2, f3, f4, f5, f6, fun x hx p hp => ⟨f7 x hx p hp, f8 x hx p hp⟩, fun q hq => ?_⟩
    have : q = s.nextQ := by
      have := hit.wUnique hq (b := ⟨w, wid, s.nextQ⟩) (by rw [hws]; simp) ⟨rfl, rfl⟩
      injection this
    subst this
    exact ⟨hout u2 hu2 f1 f2 f5 f7, hout v2 e2 f3 f4 f6 f8⟩
  · cases hb
  · cases hb
  · cases hb

example : flags 1 (runOps step (St.init (fun _ => 5) (fun _ => 5)) [.connect 0 1 1 1 yes, .disconnectR 1 1 true, .disconnectW 0 1 true]) = some [.freed] ∧
    flags 1 (runOps step (St.init (fun _ => 5) (fun _ => 5)) [.connect 0 1 1 1 yes, .disconnectW 0 1 true, .disconnectR 1 1 true]) = some [.freed] := by
  constructor <;> decide +kernel

/-! ## Sharing -/

/-- **C47.** A successful share gives the other filter, under the id asked for, the very reader shared, whose queue stays; the
share is refused when there is no such connected reader or when the other filter has a connected reader of that id, and then
nothing changes. -/
theorem share_result {mr mw : Nat → Nat} {ops : List Op} {s t : St} {out : List Bool} {f g : Nat} {gid fid : Int} {rcfg b : Bool}
    (hs : step s (.share f g gid fid rcfg) = .ok (t, b)) (h : runOps step (St.init mr mw) ops = .ok (s, out)) :
    (b = false → t = s) ∧
    (b = true → f ≠ g ∧ rcfg = true ∧ ∃ o q, ⟨f, fid, some o⟩ ∈ s.rs ∧ (s.rdr o).queue = some q ∧ (∃ e ∈ s.ws, e.q = q) ∧
      (t.rdr o).queue = some q ∧ g ∈ (t.rdr o).filters ∧ (∀ x ∈ (s.rdr o).filters, x ∈ (t.rdr o).filters) ∧ t.ws = s.ws ∧ t.lost = s.lost ∧
      (∀ e ∈ s.rs, e.f = g ∧ e.id = gid → ∀ p, e.obj = some p → ∀ q', (s.rdr p).queue = some q' → ¬ ∃ e ∈ s.ws, e.q = q') ∧
      ∀ e, e ∈ t.rs ↔ (e ∈ s.rs ∧ ¬ (e.f = g ∧ e.id = gid)) ∨ e = ⟨g, gid, some o⟩) := by
  obtain ⟨hi, _⟩ := run_inv ops _ _ _ h (inv_init mr mw)
  simp only [step] at hs
  by_cases hn : ∃ e ∈ s.rs, (e.f = f ∧ e.id = fid ∨ e.f = g ∧ e.id = gid) ∧ e.obj = none
  · obtain ⟨h1, h2⟩ := share_null hs hi hn
    exact ⟨fun _ => h1, fun hb => by rw [h2] at hb; cases hb⟩
  obtain ⟨t', b', h1, h2⟩ := share_ok hi f g gid fid rcfg (fun e he hc h => hn ⟨e, he, .inl hc, h⟩) (fun e he hc h => hn ⟨e, he, .inr hc, h⟩)
  rw [h1] at hs; cases hs
  rcases h2 with ⟨hb, rfl, _⟩ | ⟨hb, hfg, hr, hno, _, o, ho, ⟨q, hoq, hqw⟩, hrs, hws, hl, _, _, _, _, hq, hfs, hrest⟩
  · exact ⟨fun _ => rfl, fun h => by rw [hb] at h; cases h⟩
  · refine ⟨fun h => by (rw [hb] at h; cases h), fun _ => ⟨hfg, hr, o, q, ho, hoq, hqw, hq.trans hoq, ?_, ?_, hws, hl, ?_, ?_⟩⟩
    · rw [hfs]; split
      · assumption
      · simp
    · intro x hx; rw [hfs]; split
      · exact hx
      · exact List.mem_append_left _ hx
    · intro e he hk p hp q' hq' hw
      exact hno e he hk p hp ⟨q', hq', hw⟩
    · intro e
      rw [hrs, List.mem_append, List.mem_singleton, filter_mem_iff]

example : view (runOps step (St.init (fun _ => 5) (fun _ => 5)) [.connect 0 1 1 1 yes, .connect 0 2 2 1 yes, .share 1 2 1 1 true, .share 1 2 3 9 true, .share 1 1 3 1 true,
    .share 1 2 3 1 true]) = some ⟨[(1, 1), (2, 1), (2, 3)], [⟨0, 1, 0⟩, ⟨0, 2, 1⟩], [], [true, true, false, false, false, true]⟩ := by decide +kernel

/-! ## Generated ids -/

/-- **C47.** A generated id is not in use, unless the filter takes only one: then it is always 1. -/
theorem generated_unused {max : Nat} {inUse : Int → Bool} {rnd : List Int} {x : Int} (h : generate max inUse rnd = some x) :
    (max = 1 ∧ x = 1) ∨ (max ≠ 1 ∧ inUse x = false ∧ x ∈ rnd) := by
  unfold generate at h
  by_cases hm : max = 1
  · rw [if_pos hm] at h; cases h; exact .inl ⟨hm, rfl⟩
  · rw [if_neg hm] at h
    have := List.find?_some h
    simp only [decide_eq_true_eq] at this
    exact .inr ⟨hm, this, List.mem_of_find?_eq_some h⟩

/-- **C47.** An id is found as soon as the random numbers leave the ids in use. -/
theorem generated_found {max : Nat} {inUse : Int → Bool} {rnd : List Int} (h : ∃ x ∈ rnd, inUse x = false) : (generate max inUse rnd).isSome = true := by
  unfold generate
  split
  · rfl
  · obtain ⟨x, hx, hu⟩ := h
    rw [List.find?_isSome]
    exact ⟨x, hx, by simpa using hu⟩

example : generate 3 (fun x => x = 5 ∨ x = 7) [5, 7, 5, 9] = some 9 := by decide
example : generate 1 (fun x => x = 1) [5] = some 1 := by decide

/-- Deleting a reader that is not there is refused, and disconnecting it succeeds; nothing changes. -/
theorem unknown_reader (s : St) (f : Nat) (id : Int) (d : Bool) (h : ∀ e ∈ s.rs, ¬ (e.f = f ∧ e.id = id)) :
    deleteReader s f id d = .ok (s, false) ∧ disconnectReader s f id d = .ok (s, true) := by
  have hn : findR s f id = none := by
    unfold findR
    rw [List.find?_eq_none]
    intro e he
    simpa using h e he
  constructor
  · unfold deleteReader; rw [hn]
  · unfold disconnectReader; rw [hn]

example : ∀ e ∈ (St.init (fun _ => 1) (fun _ => 1)).rs, ¬ (e.f = 0 ∧ e.id = 3) := by intro e he; cases he

end Lms.FilterConn
