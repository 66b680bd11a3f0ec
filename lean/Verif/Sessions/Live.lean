import Verif.Sessions.Props

/-!
# C63: histories in which nothing is undefined, and the recorded exceptions
-/

namespace Lms.Sessions

/-- No registered sink is freed. -/
def AllAlive (s : St) : Prop := ∀ p o, s.sinks p = some o → s.alive o = true

/-- Use of the receiver that keeps to what it supports. -/
def Polite (s : St) : Op → Prop
  | .addText _ read => ∃ l, read = some l ∧ ∀ f ∈ l, f.ok = true
  | .addUrl _ _ => True
  | .described _ read play => ∀ f l, read = some (f :: l) → play = true
  | .expired _ => False
  | .ended _ _ => False
  | .connect _ _ => ∀ x ∈ s.sessions, x.2.subs.isSome
  | .disconnect _ => True
  | .round => True
  | .remove id => find s id = none ∨ ∃ l, find s id = some { client := .open, subs := some l } ∧ ∀ x ∈ l, x.port ∉ s.writers

theorem alive_new (s : St) (hi : Inv s) (h : AllAlive s) : AllAlive { s with alive := upd s.alive s.next true, next := s.next + 1 } := by
  intro p o hp
  by_cases e : o = s.next
  · subst e; exact upd_same _ _ _
  · simp only [upd_other _ _ e]; exact h p o hp

theorem alive_reg (s : St) (hi : Inv s) (h : AllAlive s) (p : Nat) :
    AllAlive { s with alive := upd s.alive s.next true, next := s.next + 1, sinks := upd s.sinks p (some s.next) } := by
  intro q o hq
  by_cases e : o = s.next
  · subst e; exact upd_same _ _ _
  · by_cases eq : q = p
    · subst eq; simp only [upd_same, Option.some.injEq] at hq; exact absurd hq.symm e
    · simp only [upd_other _ _ eq] at hq
      simp only [upd_other _ _ e]; exact h q o hq

theorem initiate_live (l : List Found) (s : St) (hi : Inv s) (h : AllAlive s) (hl : ∀ f ∈ l, f.ok = true) :
    ∃ x, initiate s l = .ok x ∧ AllAlive x.1 := by
  induction l generalizing s with
  | nil => exact ⟨(s, [], true), rfl, h⟩
  | cons f l ih =>
    rw [initiate, if_neg (by rw [hl f (by simp)]; decide)]
    simp only
    by_cases hs : (s.sinks f.port).isSome
    · rw [if_pos hs]; exact ⟨_, rfl, alive_new s hi h⟩
    · rw [if_neg hs]
      obtain ⟨x, e, hx⟩ := ih _ (inv_reg s hi f.port (by simpa using hs)) (alive_reg s hi h f.port) fun g hg => hl g (List.mem_cons_of_mem _ hg)
      rw [e]
      exact ⟨_, rfl, hx⟩

theorem setup_live (l : List Found) (s : St) (hi : Inv s) (h : AllAlive s) : AllAlive (setup s l).1 := by
  induction l generalizing s with
  | nil => exact h
  | cons f l ih =>
    rw [setup]
    by_cases hf : f.ok = false
    · rw [if_pos hf]; exact ih s hi h
    · rw [if_neg hf]
      simp only
      by_cases hs : (s.sinks f.port).isSome
      · rw [if_pos hs]; exact ih _ (inv_new s hi) (alive_new s hi h)
      · rw [if_neg hs]
        exact ih _ (inv_reg s hi f.port (by simpa using hs)) (alive_reg s hi h f.port)

theorem writerDelete_live (s : St) (h : AllAlive s) (p : Nat) (hp : (s.sinks p).isSome) : writerDelete s p = .ok () := by
  unfold writerDelete
  cases hi : s.infos p with
  | none => rfl
  | some x =>
    cases hs : s.sinks p with
    | none => rw [hs] at hp; cases hp
    | some o => simp [h p o hs]

theorem polite_step (s : St) (hi : Inv s) (h : AllAlive s) (op : Op) (hp : Polite s op) : ∃ s' b, step s op = .ok (s', b) ∧ AllAlive s' := by
  cases op with
  | addText id read =>
    obtain ⟨l, rfl, hl⟩ := hp
    rw [step.eq_def]; dsimp only
    by_cases hf : (find s id).isSome
    · rw [if_pos hf]; exact ⟨s, false, rfl, h⟩
    · rw [if_neg hf]
      obtain ⟨x, e, hx⟩ := initiate_live l s hi h hl
      rw [e, Outcome.map_ok]
      exact ⟨_, _, rfl, hx⟩
  | addUrl id ok =>
    rw [step]
    by_cases hf : (find s id).isSome
    · rw [if_pos hf]; exact ⟨s, false, rfl, h⟩
    · rw [if_neg hf]
      by_cases hk : ok = false
      · rw [if_pos hk]; exact ⟨s, false, rfl, h⟩
      · rw [if_neg hk]; exact ⟨_, _, rfl, h⟩
  | described id read play =>
    rw [step.eq_def]; dsimp only
    split
    · split
      · exact ⟨_, _, rfl, h⟩
      · exact ⟨_, _, rfl, h⟩
      · rename_i f l
        rw [if_pos (hp f l rfl)]
        exact ⟨_, _, rfl, setup_live (f :: l) s hi h⟩
    · exact ⟨_, _, rfl, h⟩
  | expired id => exact absurd hp (by simp [Polite])
  | ended id k => exact absurd hp (by simp [Polite])
  | connect port accept =>
    rw [step]
    by_cases hw : port ∈ s.writers
    · rw [if_pos hw]; exact ⟨_, _, rfl, h⟩
    rw [if_neg hw]
    by_cases hs : (s.sinks port).isNone
    · rw [if_pos hs]; exact ⟨_, _, rfl, h⟩
    rw [if_neg hs]
    have hs' : (s.sinks port).isSome := by
      cases hq : s.sinks port with
      | none => rw [hq] at hs; exact absurd rfl hs
      | some o => rfl
    obtain ⟨x, hx⟩ : ∃ x, streamInfo s port = .ok x := by
      unfold streamInfo
      cases hn : s.infos port with
      | some si => exact ⟨_, rfl⟩
      | none => simp only [lookPort_described port _ hp, Outcome.map_ok]; exact ⟨_, rfl⟩
    obtain ⟨s1, k⟩ := x
    have hsame : s1.sinks = s.sinks ∧ s1.alive = s.alive := by
      rcases streamInfo_cases s port s1 _ hx with rfl | ⟨_, rfl⟩ <;> exact ⟨rfl, rfl⟩
    have h1 : AllAlive s1 := by
      intro p o hp; rw [hsame.1] at hp; rw [hsame.2]; exact h p o hp
    rw [hx, Outcome.bind_ok]
    simp only
    by_cases hk : k.isNone ∨ accept = false
    · rw [if_pos hk, writerDelete_live s1 h1 port (by rw [hsame.1]; exact hs')]
      exact ⟨_, _, rfl, h1⟩
    · rw [if_neg hk]; exact ⟨_, _, rfl, h1⟩
  | disconnect port =>
    rw [step]
    by_cases hw : port ∈ s.writers
    · rw [if_pos hw]
      obtain ⟨o, ho⟩ := hi.wsink port hw
      rw [writerDelete_live s h port (by rw [ho]; rfl)]
      exact ⟨_, _, rfl, h⟩
    · rw [if_neg hw]; exact ⟨_, _, rfl, h⟩
  | round =>
    rw [step, if_pos]
    · exact ⟨_, _, rfl, h⟩
    · rw [List.all_eq_true]
      intro p _
      cases hs : s.sinks p with
      | none => rfl
      | some o => exact h p o hs
  | remove id =>
    rcases hp with hf | ⟨l, hf, hl⟩
    · rw [step]; simp only [hf]; exact ⟨_, _, rfl, h⟩
    · obtain ⟨s', e, -, -, -, -, e4, e5⟩ := remove_ok s hi id .open l hf (fun x hx o ho => ⟨h _ _ ho, hl x hx⟩) (Or.inl rfl)
      refine ⟨s', true, e, ?_⟩
      intro p o hpo
      rw [e4 p] at hpo
      split at hpo
      · cases hpo
      · rename_i hn
        rw [e5 o]
        refine ⟨h p o hpo, ?_⟩
        intro x hx hxo
        apply hn
        rw [hi.inj p x.port o hpo hxo]
        exact List.mem_map.mpr ⟨x, hx, rfl⟩

/-- A history every step of which keeps to what the receiver supports. -/
inductive PoliteRun : St → List Op → Prop where
  | nil (s : St) : PoliteRun s []
  | cons (s : St) (op : Op) (ops : List Op) (h : Polite s op) (hr : ∀ s' b, step s op = .ok (s', b) → PoliteRun s' ops) : PoliteRun s (op :: ops)

/-- C63: as long as streams do not end on their own, descriptions can be read and set up, filters connect when all sessions are
described and only RTSP sessions nobody is connected to are removed, nothing is ever undefined, and every connected filter's
stream has a working sink. -/
theorem polite_history (ops : List Op) (s : St) (hi : Inv s) (h : AllAlive s) (hr : PoliteRun s ops) :
    ∃ s', run s ops = .ok s' ∧ ∀ p ∈ s'.writers, ∃ o, s'.sinks p = some o ∧ s'.alive o = true := by
  induction ops generalizing s with
  | nil =>
    refine ⟨s, rfl, fun p hp => ?_⟩
    obtain ⟨o, ho⟩ := hi.wsink p hp
    exact ⟨o, ho, h p o ho⟩
  | cons op ops ih =>
    cases hr with
    | cons _ _ _ hp hrest =>
      obtain ⟨s', b, e, ha⟩ := polite_step s hi h op hp
      obtain ⟨s'', e', hw⟩ := ih s' (step_inv s hi op s' b e) ha (hrest s' b e)
      exact ⟨s'', by rw [run, e, Outcome.bind_ok]; exact e', hw⟩

/-- From the start. -/
theorem polite_from_start (ops : List Op) (hr : PoliteRun {} ops) :
    ∃ s', run {} ops = .ok s' ∧ ∀ p ∈ s'.writers, ∃ o, s'.sinks p = some o ∧ s'.alive o = true :=
  polite_history ops {} inv_init (fun p o h => by cases h) hr

/-- C63: a session made from a text with free, distinct ports has a working sink at every one of them. -/
theorem add_registers (l : List Found) (s : St) (hl : ∀ f ∈ l, f.ok = true) (hd : (l.map (·.port)).Nodup) (hf : ∀ f ∈ l, s.sinks f.port = none) :
    ∃ s' subs, initiate s l = .ok (s', subs, true) ∧ subs.map (·.port) = l.map (·.port) ∧ subs.map (·.kind) = l.map (·.kind) ∧
      (∀ p, p ∉ l.map (·.port) → s'.sinks p = s.sinks p) ∧ (∀ o < s.next, s'.alive o = s.alive o) ∧ s.next ≤ s'.next ∧
      ∀ x ∈ subs, ∃ o, s.next ≤ o ∧ x.sink = some o ∧ s'.sinks x.port = some o ∧ s'.alive o = true := by
  induction l generalizing s with
  | nil => exact ⟨s, [], rfl, rfl, rfl, fun _ _ => rfl, fun _ _ => rfl, Nat.le_refl _, by simp⟩
  | cons f l ih =>
    rw [List.map_cons, List.nodup_cons] at hd
    have hn := hf f (by simp)
    obtain ⟨s', subs, e, e1, e2, e3, e4, e5, e6⟩ := ih { s with alive := upd s.alive s.next true, next := s.next + 1, sinks := upd s.sinks f.port (some s.next) }
      (fun g hg => hl g (List.mem_cons_of_mem _ hg)) hd.2 (fun g hg => by
        have : g.port ≠ f.port := fun e => hd.1 (e ▸ List.mem_map.mpr ⟨g, hg, rfl⟩)
        simp only [upd_other _ _ this]
        exact hf g (List.mem_cons_of_mem _ hg))
    refine ⟨s', { port := f.port, kind := f.kind, sink := some s.next } :: subs, ?_, by rw [List.map_cons, e1, List.map_cons], by rw [List.map_cons, e2, List.map_cons], ?_, ?_, ?_, ?_⟩
    · rw [initiate, if_neg (by rw [hl f (by simp)]; decide)]
      simp only
      rw [if_neg (by rw [hn]; simp), e, Outcome.map_ok]
    · intro p hp
      rw [List.map_cons, List.mem_cons, not_or] at hp
      rw [e3 p hp.2]
      exact upd_other _ _ hp.1
    · intro o ho
      rw [e4 o (Nat.lt_succ_of_lt ho)]
      exact upd_other _ _ (by omega)
    · exact Nat.le_trans (Nat.le_succ _) e5
    · intro x hx
      rw [List.mem_cons] at hx
      rcases hx with rfl | hx
      · refine ⟨s.next, Nat.le_refl _, rfl, ?_, ?_⟩
        · rw [e3 _ hd.1]; exact upd_same _ _ _
        · rw [e4 _ (Nat.lt_succ_self _)]; exact upd_same _ _ _
      · obtain ⟨o, h1, h2⟩ := e6 x hx
        exact ⟨o, Nat.le_of_succ_le h1, h2⟩

/-- C63: a request for streams that can all be set up is answered with yes exactly if their ports are distinct and free. -/
theorem add_answer_iff (l : List Found) (s : St) (hl : ∀ f ∈ l, f.ok = true) :
    ∃ s' subs b, initiate s l = .ok (s', subs, b) ∧ (b = true ↔ (l.map (·.port)).Nodup ∧ ∀ f ∈ l, s.sinks f.port = none) := by
  induction l generalizing s with
  | nil => exact ⟨s, [], true, rfl, by simp⟩
  | cons f l ih =>
    rw [initiate, if_neg (by rw [hl f (by simp)]; decide)]
    simp only
    by_cases hs : (s.sinks f.port).isSome
    · rw [if_pos hs]
      refine ⟨_, _, _, rfl, ?_⟩
      simp only [Bool.false_eq_true, false_iff]
      rintro ⟨-, h⟩
      rw [h f (by simp)] at hs; cases hs
    · rw [if_neg hs]
      obtain ⟨s', subs, b, e, hb⟩ := ih { s with alive := upd s.alive s.next true, next := s.next + 1, sinks := upd s.sinks f.port (some s.next) }
        fun g hg => hl g (List.mem_cons_of_mem _ hg)
      rw [e, Outcome.map_ok]
      refine ⟨_, _, _, rfl, ?_⟩
      simp only
      rw [hb, List.map_cons, List.nodup_cons]
      constructor
      · rintro ⟨h1, h2⟩
        refine ⟨⟨?_, h1⟩, ?_⟩
        · intro hm
          obtain ⟨g, hg, e⟩ := List.mem_map.mp hm
          have := h2 g hg
          simp only [e, upd_same] at this
          cases this
        · intro g hg
          rw [List.mem_cons] at hg
          rcases hg with rfl | hg
          · simpa using hs
          · have := h2 g hg
            by_cases e : g.port = f.port
            · simp only [e, upd_same] at this; cases this
            · simpa only [upd_other _ _ e] using this
      · rintro ⟨⟨h1, h2⟩, h3⟩
        refine ⟨h2, fun g hg => ?_⟩
        have : g.port ≠ f.port := fun e => h1 (e ▸ List.mem_map.mpr ⟨g, hg, rfl⟩)
        simp only [upd_other _ _ this]
        exact h3 g (List.mem_cons_of_mem _ hg)

/-- C63, recorded: a session whose client was closed can never be removed. -/
theorem closed_not_removable (s : St) (h : Reachable s) (id : Nat) (subs : Option (List Sub)) (hf : find s id = some { client := .closed, subs := subs }) :
    step s (.remove id) = .ub := by
  refine Classical.byContradiction fun hn => ?_
  rcases (remove_defined_iff s h id).mp hn with h1 | ⟨c, l', h1, -, h3⟩
  · rw [hf] at h1; cases h1
  · rw [hf] at h1
    simp only [Option.some.injEq, Sess.mk.injEq] at h1
    rcases h3 with h3 | ⟨h3, -⟩ <;> rw [h3] at h1 <;> exact absurd h1.1 (by decide)

theorem shutdown_closes (s : St) (hs : Inv s) (id : Nat) (x : Sess) (s' : St) (e : shutdown s id x = .ok s') : ∃ subs, find s' id = some { client := .closed, subs := subs } := by
  unfold shutdown at e
  split at e
  · simp only [Outcome.ok.injEq] at e
    rw [← e]
    exact ⟨_, by rw [find_upd s hs, if_pos rfl]⟩
  · rename_i l _
    cases hc : closeAll s.alive l with
    | ub => rw [hc] at e; cases e
    | hang => rw [hc] at e; cases e
    | ok y =>
      simp only [hc, Outcome.map_ok, Outcome.ok.injEq] at e
      rw [← e]
      exact ⟨_, by
        have := find_insert s.sessions hs.sorted id { client := .closed, subs := some y.2 } id
        rw [if_pos rfl] at this
        exact this⟩

/-- C63, recorded: a session whose description cannot be read or has no streams, whose start fails or whose time is over stays
in the receiver (its id is taken) and cannot be removed any more. -/
theorem failed_session_stays (s : St) (h : Reachable s) (id : Nat) (op : Op) (subs : Option (List Sub)) (hf : find s id = some { client := .open, subs := subs })
    (hop : (subs = none ∧ (op = .described id none true ∨ op = .described id (some []) true ∨ ∃ l, op = .described id (some l) false)) ∨ (subs ≠ none ∧ op = .expired id))
    (s' : St) (b : Bool) (e : step s op = .ok (s', b)) :
    (∃ subs', find s' id = some { client := .closed, subs := subs' }) ∧ step s' (.remove id) = .ub := by
  have hr : Reachable s' := by
    obtain ⟨ops, e0⟩ := h
    refine ⟨ops ++ [op], ?_⟩
    have : ∀ (l : List Op) (a : St), run a l = .ok s → run a (l ++ [op]) = .ok s' := by
      intro l
      induction l with
      | nil =>
        intro a ea
        simp only [run, Outcome.ok.injEq] at ea
        rw [ea, List.nil_append, run, e, Outcome.bind_ok]; rfl
      | cons o l ih =>
        intro a ea
        rw [run] at ea
        cases hs : step a o with
        | ub => rw [hs] at ea; cases ea
        | hang => rw [hs] at ea; cases ea
        | ok x =>
          simp only [hs, Outcome.bind_ok] at ea
          rw [List.cons_append, run, hs, Outcome.bind_ok]
          exact ih x.1 ea
    exact this ops {} e0
  suffices hc : ∃ subs', find s' id = some { client := .closed, subs := subs' } by
    obtain ⟨subs', hc⟩ := hc
    exact ⟨⟨subs', hc⟩, closed_not_removable s' hr id subs' hc⟩
  have hi := reachable_inv h
  have key : ∀ (t : St) (_ : Inv t) (x : Sess) (b' : Bool), ((shutdown t id x).map fun s' => (s', b')) = .ok (s', b) → ∃ subs', find s' id = some { client := .closed, subs := subs' } := by
    intro t ht x b' ek
    cases hsd : shutdown t id x with
    | ub => rw [hsd] at ek; cases ek
    | hang => rw [hsd] at ek; cases ek
    | ok t' =>
      simp only [hsd, Outcome.map_ok, Outcome.ok.injEq, Prod.mk.injEq] at ek
      exact shutdown_closes t ht id x s' (by rw [hsd, ek.1])
  rcases hop with ⟨rfl, rfl | rfl | ⟨l, rfl⟩⟩ | ⟨hsub, rfl⟩
  · rw [step.eq_def] at e; simp only [hf] at e
    exact key _ hi _ _ e
  · rw [step.eq_def] at e; simp only [hf] at e
    exact key _ hi _ _ e
  · rw [step.eq_def] at e; simp only [hf] at e
    cases l with
    | nil => exact key _ hi _ _ e
    | cons f l =>
      simp only [Bool.false_eq_true, if_false] at e
      exact key _ (setup_inv (f :: l) s hi) _ _ e
  · cases subs with
    | none => exact absurd rfl hsub
    | some l =>
      rw [step.eq_def] at e; simp only [hf] at e
      exact key _ hi _ _ e

/-! ## Examples and recorded exceptions -/

/-- A video stream at port 5004 and an audio stream at 5006. -/
def two : List Found := [⟨5004, some (.video 1), true⟩, ⟨5006, some (.audio 2), true⟩]

/-- Use within the limits: an RTSP session described, connected, disconnected and removed, beside one made from a text. -/
def politeOps : List Op :=
  [.addText 1 (some [⟨6000, some (.audio 1), true⟩]), .addUrl 2 true, .described 2 (some two) true, .connect 5004 true, .round, .connect 6000 true, .round,
   .disconnect 5004, .round, .remove 2, .round]

/-- Tests for `PoliteRun` on concrete histories. -/
def politeB (s : St) : Op → Bool
  | .addText _ read => match read with | some l => l.all (·.ok) | none => false
  | .addUrl _ _ => true
  | .described _ read play => match read with | some (_ :: _) => play | _ => true
  | .expired _ => false
  | .ended _ _ => false
  | .connect _ _ => s.sessions.all fun x => x.2.subs.isSome
  | .disconnect _ => true
  | .round => true
  | .remove id => match find s id with
    | none => true
    | some { client := .open, subs := some l } => l.all fun x => x.port ∉ s.writers
    | _ => false

def politeRunB (s : St) : List Op → Bool
  | [] => true
  | op :: ops => politeB s op && match step s op with
    | .ok x => politeRunB x.1 ops
    | _ => true

theorem politeB_sound (s : St) (op : Op) (h : politeB s op = true) : Polite s op := by
  cases op with
  | addText id read =>
    cases read with
    | none => simp [politeB] at h
    | some l => exact ⟨l, rfl, by simpa [politeB] using h⟩
  | addUrl id ok => trivial
  | described id read play =>
    intro f l e
    subst e
    exact h
  | expired id => simp [politeB] at h
  | ended id k => simp [politeB] at h
  | connect p a => simpa [politeB, Polite] using h
  | disconnect p => trivial
  | round => trivial
  | remove id =>
    simp only [politeB] at h
    split at h
    · rename_i hf; exact Or.inl hf
    · rename_i l hf
      refine Or.inr ⟨l, hf, ?_⟩
      simpa using h
    · cases h

theorem politeRunB_sound (ops : List Op) (s : St) (h : politeRunB s ops = true) : PoliteRun s ops := by
  induction ops generalizing s with
  | nil => exact .nil s
  | cons op ops ih =>
    rw [politeRunB, Bool.and_eq_true] at h
    refine .cons s op ops (politeB_sound s op h.1) ?_
    intro s' b e
    rw [e] at h
    exact ih s' h.2

theorem polite_example : PoliteRun {} politeOps := politeRunB_sound _ _ (by decide +kernel)

/-- `consistent`, `remove_effect`, `remove_defined_iff`, `used_id_refused`: a reachable state with an open, described session without
connections, whose sinks are there. -/
theorem remove_example : ∃ s, Reachable s ∧ find s 2 = some { client := .open, subs := some [⟨5004, some (.video 1), some 1⟩, ⟨5006, some (.audio 2), some 2⟩] } ∧
    s.sinks 5004 = some 1 ∧ s.alive 1 = true ∧ s.sinks 5006 = some 2 ∧ s.alive 2 = true ∧ s.writers = [6000] := by
  refine ⟨_, ⟨[.addText 1 (some [⟨6000, some (.audio 1), true⟩]), .addUrl 2 true, .described 2 (some two) true, .connect 6000 true], rfl⟩, ?_⟩
  decide +kernel

/-- `connect_first_time`, `round_defined_iff`, `disconnect_defined_iff`: before and after a first connection. -/
theorem connect_example : ∃ s s', Reachable s ∧ s.sinks 5006 = some 1 ∧ s.alive 1 = true ∧ s.infos 5006 = none ∧ (∀ x ∈ s.sessions, x.2.subs.isSome) ∧
    step s (.connect 5006 true) = .ok (s', true) ∧ s'.writers = [5006] ∧ s'.infos 5006 = some (some (.audio 2)) := by
  refine ⟨_, _, ⟨[.addText 1 (some two)], rfl⟩, by decide +kernel, by decide +kernel, by decide +kernel, by decide +kernel, rfl, by decide +kernel, by decide +kernel⟩

/-- `add_registers`: its hypotheses hold for two streams at the start. -/
theorem add_example : (∀ f ∈ two, f.ok = true) ∧ (two.map (·.port)).Nodup ∧ ∀ f ∈ two, ({} : St).sinks f.port = none := by decide +kernel

/-- Whether a history is undefined. -/
def isUb : Outcome St → Bool
  | .ub => true
  | _ => false

/-- C63, recorded: a session made from a text cannot be removed once it has a stream. -/
theorem remove_text_session (s : St) (h : Reachable s) (id : Nat) (x : Sub) (l : List Sub)
    (hf : find s id = some { client := .none, subs := some (x :: l) }) : step s (.remove id) = .ub := by
  refine Classical.byContradiction fun hn => ?_
  rcases (remove_defined_iff s h id).mp hn with h1 | ⟨c, l', h1, -, h3⟩
  · rw [hf] at h1; cases h1
  · rw [hf] at h1
    simp only [Option.some.injEq, Sess.mk.injEq] at h1
    rcases h3 with h3 | ⟨-, h3⟩
    · rw [h3] at h1; exact absurd h1.1 (by decide)
    · rw [h3] at h1; exact absurd h1.2 (by simp)

theorem remove_text_example : isUb (run {} [.addText 1 (some two), .remove 1]) = true := by decide +kernel

/-- C63, recorded: nor can an RTSP session a filter is connected to. -/
theorem remove_connected : isUb (run {} [.addUrl 1 true, .described 1 (some two) true, .connect 5004 true, .remove 1]) = true := by decide +kernel

/-- C63, recorded: nor one not yet described. -/
theorem remove_undescribed : isUb (run {} [.addUrl 1 true, .remove 1]) = true := by decide +kernel

/-- C63, recorded: nor one whose start failed. -/
theorem remove_failed : isUb (run {} [.addUrl 1 true, .described 1 none true, .remove 1]) = true ∧ isUb (run {} [.addUrl 1 true, .described 1 (some []) true, .remove 1]) = true ∧
    isUb (run {} [.addUrl 1 true, .described 1 (some two) false, .remove 1]) = true := by
  refine ⟨?_, ?_, ?_⟩ <;> decide +kernel

/-- C63, recorded: when the sender ends a connected stream, the next round uses a freed sink. -/
theorem ended_stream : isUb (run {} [.addText 1 (some two), .connect 5004 true, .ended 1 0, .round]) = true := by decide +kernel

/-- C63, recorded: and its session cannot be removed. -/
theorem ended_remove : isUb (run {} [.addUrl 1 true, .described 1 (some two) true, .ended 1 0, .remove 1]) = true := by decide +kernel

/-- C63, recorded: connecting while a session with a smaller id waits for its description. -/
theorem connect_waiting : isUb (run {} [.addUrl 1 true, .addText 2 (some two), .connect 5004 true]) = true := by decide +kernel

/-- C63, recorded: a text the library cannot read, or a stream it cannot set up. -/
theorem unreadable_text : isUb (run {} [.addText 1 none]) = true ∧ isUb (run {} [.addText 1 (some [⟨5004, none, false⟩])]) = true := by
  constructor <;> decide +kernel

/-- The answers of a history. -/
def answers (s : St) : List Op → List Bool
  | [] => []
  | op :: l => match step s op with
    | .ok (s', b) => b :: answers s' l
    | _ => []

/-- C63, recorded: a request refused because a port is in use leaves its session behind: the id is taken. -/
theorem refused_keeps_id : answers {} [.addText 1 (some two), .addText 2 (some two), .addText 2 (some [⟨7000, none, true⟩])] = [true, false, false] := by
  decide +kernel

/-- The description stored for a port after a history. -/
def infoAfter (ops : List Op) (p : Nat) : Option (Option Kind) :=
  match run {} ops with
  | .ok s => s.infos p
  | _ => none

/-- C63, recorded: a port used again for another stream is connected with the description of the old one. -/
theorem stale_description : answers {} [.addUrl 1 true, .described 1 (some two) true, .connect 5004 true, .disconnect 5004, .remove 1,
      .addText 2 (some [⟨5004, some (.audio 9), true⟩]), .connect 5004 true] = [true, true, true, true, true, true, true] ∧
    infoAfter [.addUrl 1 true, .described 1 (some two) true, .connect 5004 true, .disconnect 5004, .remove 1,
      .addText 2 (some [⟨5004, some (.audio 9), true⟩]), .connect 5004 true] 5004 = some (some (.video 1)) := by
  constructor <;> decide +kernel

/-- C63, recorded: removing a session one of whose ports was already in use takes away the sink of the other session's stream;
afterwards nobody can connect to it. -/
theorem foreign_sink : answers {} [.addText 1 (some two), .addUrl 2 true, .described 2 (some two) true, .remove 2, .connect 5004 true] =
    [true, true, true, true, false] := by decide +kernel

end Lms.Sessions
