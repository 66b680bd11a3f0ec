import Verif.Sources.Queue

/-!
# C41: the transmitter's frame loop gives every frame back
-/

namespace Lms.Sources

/-- Nobody holds a frame. -/
def Free (l : Sources) : Prop := ∀ x ∈ l, x.2.2.frame = none

/-- How many hold one. -/
def holders (l : Sources) : Nat := (l.filter fun x => x.2.2.frame.isSome).length

theorem free_iff (l : Sources) : Free l ↔ holders l = 0 := by
  unfold Free holders
  rw [List.length_eq_zero_iff, List.filter_eq_nil_iff]
  constructor
  · intro h x hx; simp [h x hx]
  · intro h x hx; have := h x hx; simpa using this

theorem holders_cons (x : Nat × Kind × Src) (l : Sources) : holders (x :: l) = (if x.2.2.frame.isSome then 1 else 0) + holders l := by
  unfold holders; rw [List.filter_cons]; split <;> simp <;> omega

/-- What a packetiser does on its own changes no frame. -/
theorem act_frame (k : Kind) (s s' : Src) (a : Act) (out : Out) (h : step k s a.op = .ok (s', out)) : s'.frame = s.frame := by
  have hd : ∀ (t : Src) r, deliver k t = .ok r → r.1.frame = t.frame := by
    intro t r hr
    unfold deliver at hr
    split at hr
    · simp only [Outcome.ok.injEq] at hr; subst hr; rfl
    · simp only [Outcome.ok.injEq] at hr; subst hr; rfl
    · split at hr
      · simp only [Outcome.ok.injEq] at hr; subst hr; rfl
      · rename_i room f _ _ _
        cases ha : answer k f room with
        | ok a => rw [ha] at hr; simp only [Outcome.bind_ok, Outcome.ok.injEq] at hr; subst hr; rfl
        | ub => rw [ha] at hr; simp at hr
        | hang => rw [ha] at hr; simp at hr
  cases a with
  | ask r =>
    change (if s.waiting ≠ none then _ else if s.frame ≠ none then _ else _) = _ at h
    split at h
    · simp at h
    · split at h
      · cases hdl : deliver k { s with waiting := some r, stop := false } with
        | ok x =>
          rw [hdl] at h; simp only [Outcome.bind_ok, Outcome.ok.injEq, Prod.mk.injEq] at h
          rw [← h.1]; exact hd { s with waiting := some r, stop := false } x hdl
        | ub => rw [hdl] at h; simp at h
        | hang => rw [hdl] at h; simp at h
      · simp only [Outcome.ok.injEq, Prod.mk.injEq] at h
        rw [← h.1]
  | trigger =>
    change (deliver k s).bind _ = _ at h
    cases hdl : deliver k s with
    | ok x =>
      rw [hdl] at h; simp only [Outcome.bind_ok, Outcome.ok.injEq, Prod.mk.injEq] at h
      rw [← h.1]; exact hd _ x hdl
    | ub => rw [hdl] at h; simp at h
    | hang => rw [hdl] at h; simp at h
  | stop =>
    change Outcome.ok _ = _ at h
    simp only [Outcome.ok.injEq, Prod.mk.injEq] at h
    rw [← h.1]

theorem act_holders (i : Nat) (a : Act) (l : Sources) : ∀ l', act i a l = .ok l' → holders l' = holders l := by
  induction l with
  | nil => intro l' h; simp only [act, Outcome.ok.injEq] at h; rw [← h]
  | cons x l ih =>
    intro l' h
    obtain ⟨j, k, s⟩ := x
    rw [act] at h
    split at h
    · cases hs : step k s a.op with
      | ok r =>
        rw [hs] at h; simp only [Outcome.bind_ok, Outcome.ok.injEq] at h
        rw [← h, holders_cons, holders_cons]
        simp only [act_frame k s r.1 a r.2 hs]
      | ub => rw [hs] at h; simp at h
      | hang => rw [hs] at h; simp at h
    · cases ha : act i a l with
      | ok r =>
        rw [ha] at h; simp only [Outcome.bind_ok, Outcome.ok.injEq] at h
        rw [← h, holders_cons, holders_cons, ih r ha]
      | ub => rw [ha] at h; simp at h
      | hang => rw [ha] at h; simp at h

theorem single_holders (acts : List (Nat × Act)) : ∀ (l l' : Sources), single acts l = .ok l' → holders l' = holders l := by
  induction acts with
  | nil => intro l l' h; simp only [single, Outcome.ok.injEq] at h; rw [← h]
  | cons x acts ih =>
    intro l l' h
    obtain ⟨i, a⟩ := x
    rw [single] at h
    cases ha : act i a l with
    | ok r => rw [ha] at h; rw [ih r l' h, act_holders i a l r ha]
    | ub => rw [ha] at h; simp at h
    | hang => rw [ha] at h; simp at h

/-- The frames offered all get to their sources. -/
theorem offer_free (new : List (Nat × Frame)) (l : Sources) (h : Free l) :
    (offer new l).1 = l.map (fun x => (x.1, x.2.1, { x.2.2 with frame := new.lookup x.1 })) ∧ (offer new l).2 = holders (offer new l).1 := by
  induction l with
  | nil => exact ⟨rfl, rfl⟩
  | cons x l ih =>
    obtain ⟨j, k, s⟩ := x
    have hx : s.frame = none := h (j, k, s) (by simp)
    obtain ⟨e1, e2⟩ := ih (fun y hy => h y (by simp [hy]))
    have hs : ({ s with frame := none } : Src) = s := by cases s; simp only at hx; rw [hx]
    unfold offer
    cases hl : new.lookup j with
    | none =>
      refine ⟨?_, ?_⟩
      · simp only [List.map_cons, hl, e1, hs]
      · simp only [holders_cons, hx, e2]; simp
    | some f =>
      simp only [hx, if_true]
      refine ⟨?_, ?_⟩
      · simp only [List.map_cons, hl, e1]
      · simp only [holders_cons, e2]; simp; omega

/-- Collecting is asking every source. -/
theorem collect_entries (l : Sources) : (collect l).1.length = l.length ∧
    ∀ (i : Nat) (j : Nat) (k : Kind) (s : Src), l[i]? = some (j, k, s) → ∃ s' out, step k s .got = .ok (s', out) ∧ (collect l).1[i]? = some (j, k, s') := by
  induction l with
  | nil => exact ⟨rfl, by intro i j k s h; simp at h⟩
  | cons x l ih =>
    obtain ⟨j0, k0, s0⟩ := x
    have e : ∃ s' out, step k0 s0 .got = .ok (s', out) ∧ (collect ((j0, k0, s0) :: l)).1 = (j0, k0, s') :: (collect l).1 := by
      have hstep : step k0 s0 .got = if s0.processed = true ∨ s0.stop = true then
          (if s0.frame ≠ none then Outcome.ok ({ s0 with processed := false, frame := none }, Out.got true)
            else .ok ({ s0 with processed := false }, .got false)) else .ok (s0, .got false) := rfl
      rw [hstep]
      rw [collect]
      split
      · split
        · exact ⟨_, _, rfl, rfl⟩
        · exact ⟨_, _, rfl, rfl⟩
      · exact ⟨_, _, rfl, rfl⟩
    obtain ⟨s', out, e1, e2⟩ := e
    rw [e2]
    refine ⟨by simp [ih.1], ?_⟩
    intro i j k s h
    cases i with
    | zero =>
      simp only [List.getElem?_cons_zero, Option.some.injEq, Prod.mk.injEq] at h
      obtain ⟨rfl, rfl, rfl⟩ := h
      exact ⟨s', out, e1, rfl⟩
    | succ i =>
      rw [List.getElem?_cons_succ] at h ⊢
      exact ih.2 i j k s h

/-- As many frames go as sources said so. -/
theorem collect_count (l : Sources) : holders (collect l).1 + (collect l).2 = holders l := by
  induction l with
  | nil => rfl
  | cons x l ih =>
    obtain ⟨j, k, s⟩ := x
    rw [holders_cons]
    unfold collect
    simp only
    split
    · by_cases hn : s.frame = none
      · rw [if_neg (by simp [hn])]; simp only [holders_cons, hn]; simp; omega
      · rw [if_pos hn]
        have : s.frame.isSome = true := by cases hs : s.frame with
          | none => exact absurd hs hn
          | some f => rfl
        simp only [holders_cons, this]; simp; omega
    · simp only [holders_cons]; omega

theorem loop_free (sched : List (List (Nat × Act))) : ∀ (l l' : Sources), loop sched l (holders l) = .ok l' → Free l' := by
  induction sched with
  | nil =>
    intro l l' h
    rw [loop] at h
    split at h
    · simp only [Outcome.ok.injEq] at h; subst h; rw [free_iff]; omega
    · simp at h
  | cons acts sched ih =>
    intro l l' h
    rw [loop] at h
    split at h
    · simp only [Outcome.ok.injEq] at h; subst h; rw [free_iff]; omega
    · cases hs : single acts l with
      | ok r =>
        rw [hs] at h
        simp only [Outcome.bind_ok] at h
        have h1 := single_holders acts l r hs
        have h2 := collect_count r
        rw [show ((holders l : Int) - ((collect r).2 : Nat)) = ((holders (collect r).1 : Nat) : Int) by omega] at h
        exact ih _ _ h
      | ub => rw [hs] at h; simp at h
      | hang => rw [hs] at h; simp at h

/-- **C41, transmitter.** When the transmitter is done with a round, no source holds a frame of it, whatever the packetisers did; so the
frames may be taken from their queues, and in the next round every source can take a new one. -/
theorem frames_given_back (new : List (Nat × Frame)) (sched : List (List (Nat × Act))) (l l' : Sources) (b : Bool) (h : Free l)
    (he : processFrames new sched l = .ok (l', b)) : Free l' := by
  unfold processFrames at he
  obtain ⟨-, e2⟩ := offer_free new l h
  simp only at he
  split at he
  · rename_i h0
    split at he
    · simp at he
    · rename_i acts _
      cases hs : single acts (offer new l).1 with
      | ok r =>
        rw [hs] at he
        simp only [Outcome.bind_ok, Outcome.ok.injEq, Prod.mk.injEq] at he
        rw [← he.1, free_iff, single_holders _ _ _ hs, ← e2, h0]
      | ub => rw [hs] at he; simp at he
      | hang => rw [hs] at he; simp at he
  · rw [e2] at he
    cases hl : loop sched (offer new l).1 (holders (offer new l).1) with
    | ok r =>
      rw [hl] at he
      simp only [Outcome.bind_ok, Outcome.ok.injEq, Prod.mk.injEq] at he
      rw [← he.1]; exact loop_free sched _ _ hl
    | ub => rw [hl] at he; simp at he
    | hang => rw [hl] at he; simp at he

/-! ## The loop ends -/

theorem act_other (i : Nat) (a : Act) (pre post : Sources) (h : ∀ x ∈ pre, i ≠ x.1) :
    act i a (pre ++ post) = (act i a post).bind fun l => Outcome.ok (pre ++ l) := by
  induction pre with
  | nil => simp only [List.nil_append]; cases act i a post <;> rfl
  | cons x pre ih =>
    obtain ⟨j, k, s⟩ := x
    rw [List.cons_append, act, if_neg (h (j, k, s) (by simp)), ih (fun y hy => h y (by simp [hy]))]
    cases act i a post <;> rfl

/-- Every source triggered once. -/
theorem single_triggers (todo : Sources) : ∀ (done : Sources), (done ++ todo).Pairwise (fun x y => x.1 ≠ y.1) →
    (∀ x ∈ todo, Inv x.2.1 x.2.2) →
    ∃ todo', single (todo.map fun x => (x.1, .trigger)) (done ++ todo) = .ok (done ++ todo') ∧
      (∀ y ∈ todo', ∃ x ∈ todo, ∃ out, step x.2.1 x.2.2 .trigger = .ok (y.2.2, out)) := by
  induction todo with
  | nil => intro done _ _; exact ⟨[], rfl, by simp⟩
  | cons x todo ih =>
    intro done hp hi
    obtain ⟨j, k, s⟩ := x
    have hne : ∀ y ∈ done, j ≠ y.1 := by
      intro y hy
      rw [List.pairwise_append] at hp
      exact fun e => hp.2.2 y hy (j, k, s) (by simp) e.symm
    obtain ⟨s', out, e, -, -⟩ := step_cases k s .trigger (hi (j, k, s) (by simp)) trivial
    have hp' : ((done ++ [(j, k, s')]) ++ todo).Pairwise (fun x y => x.1 ≠ y.1) := by
      rw [List.append_assoc]
      rw [List.pairwise_append] at hp ⊢
      refine ⟨hp.1, ?_, ?_⟩
      · have h2 := hp.2.1
        rw [List.pairwise_cons] at h2
        rw [List.singleton_append, List.pairwise_cons]
        exact h2
      · intro a ha b hb
        rw [List.singleton_append, List.mem_cons] at hb
        rcases hb with rfl | hb
        · exact hp.2.2 a ha (j, k, s) (by simp)
        · exact hp.2.2 a ha b (by simp [hb])
    obtain ⟨t', e1, e2⟩ := ih (done ++ [(j, k, s')]) hp' (fun y hy => hi y (by simp [hy]))
    refine ⟨(j, k, s') :: t', ?_, ?_⟩
    · rw [List.map_cons, single, act_other j .trigger done _ hne, act, if_pos rfl]
      have e' : step k s Act.trigger.op = .ok (s', out) := e
      rw [e']
      simp only [Outcome.bind_ok]
      rw [show done ++ (j, k, s') :: todo = (done ++ [(j, k, s')]) ++ todo by simp, e1]
      simp
    · intro y hy
      rcases List.mem_cons.1 hy with rfl | hy
      · exact ⟨(j, k, s), by simp, out, e⟩
      · obtain ⟨x, hx, o, h⟩ := e2 y hy
        exact ⟨x, by simp [hx], o, h⟩

/-- If every packetiser has either a request outstanding or is not running, the round is over once the triggers have fired. -/
theorem round_ends (new : List (Nat × Frame)) (sched : List (List (Nat × Act))) (l : Sources) (h : Free l)
    (hids : l.Pairwise (fun x y => x.1 ≠ y.1)) (hinv : ∀ x ∈ l, Inv x.2.1 x.2.2) (hnew : ∀ x ∈ l, ∀ f, new.lookup x.1 = some f → Valid x.2.1 f)
    (hready : ∀ x ∈ l, x.2.2.stop = true ∨ x.2.2.waiting ≠ none) :
    ∃ l' b, processFrames new ((l.map fun x => (x.1, .trigger)) :: sched) l = .ok (l', b) := by
  obtain ⟨e1, e2⟩ := offer_free new l h
  obtain ⟨o, ho⟩ : ∃ o, (offer new l).1 = o := ⟨_, rfl⟩
  rw [ho] at e1
  have hmap : (l.map fun x => (x.1, Act.trigger)) = o.map fun x => (x.1, .trigger) := by rw [e1, List.map_map]; rfl
  have hmem : ∀ y ∈ o, ∃ x ∈ l, y = (x.1, x.2.1, { x.2.2 with frame := new.lookup x.1 }) := by
    intro y hy; rw [e1, List.mem_map] at hy; obtain ⟨x, hx, rfl⟩ := hy; exact ⟨x, hx, rfl⟩
  have hidle : ∀ x ∈ l, x.2.2.processed = false := by
    intro x hx
    cases hp : x.2.2.processed with
    | false => rfl
    | true => exact absurd (h x hx) ((hinv x hx).held hp)
  have hio : ∀ y ∈ o, Inv y.2.1 y.2.2 := by
    intro y hy
    obtain ⟨x, hx, rfl⟩ := hmem y hy
    refine ⟨?_, ?_⟩
    · intro hp; have := hidle x hx; simp only at hp; rw [this] at hp; exact absurd hp (by decide)
    · intro f hf; exact hnew x hx f hf
  have hpo : (([] : Sources) ++ o).Pairwise (fun x y => x.1 ≠ y.1) := by
    rw [List.nil_append, e1, List.pairwise_map]; exact hids
  obtain ⟨t', s1, s2⟩ := single_triggers o [] hpo hio
  simp only [List.nil_append] at s1
  unfold processFrames
  simp only [ho, hmap]
  by_cases h0 : (offer new l).2 = 0
  · rw [if_pos h0, s1]; exact ⟨_, _, rfl⟩
  · rw [if_neg h0]
    have hfree : Free (collect t').1 := by
      intro y hy
      obtain ⟨i, hi⟩ := List.mem_iff_getElem?.1 hy
      have hlen : i < t'.length := by
        rw [← (collect_entries t').1]
        by_cases hlt : i < (collect t').1.length
        · exact hlt
        · rw [List.getElem?_eq_none (by omega)] at hi; simp at hi
      obtain ⟨z, hz⟩ : ∃ z, t'[i]? = some z := ⟨t'[i], List.getElem?_eq_getElem hlen⟩
      obtain ⟨j, k, s⟩ := z
      obtain ⟨s', out, g1, g2⟩ := (collect_entries t').2 i j k s hz
      rw [g2] at hi
      simp only [Option.some.injEq] at hi
      subst hi
      obtain ⟨x, hx, out', hst⟩ := s2 (j, k, s) (List.mem_of_getElem? hz)
      obtain ⟨x0, hx0, hxe⟩ := hmem x hx
      obtain ⟨s'', out'', c1, ci, c2⟩ := step_cases x.2.1 x.2.2 .trigger (hio x hx) trivial
      rw [hst] at c1
      simp only [Outcome.ok.injEq, Prod.mk.injEq] at c1
      obtain ⟨c1, rfl⟩ := c1
      have hs : s = s'' := c1
      subst hs
      -- after the trigger a frame is there only if it was answered or the packetiser is not running
      have hdone : s.frame = none ∨ s.processed = true ∨ s.stop = true := by
        rw [hxe] at c2
        simp only at c2
        rcases hready x0 hx0 with hst | hw
        · right; right
          split at c2
          · split at c2
            · rw [c2.1]; exact hst
            · obtain ⟨a, -, c2, -⟩ := c2; rw [c2]; exact hst
          · rw [c2.1]; exact hst
        · split at c2
          · split at c2
            · right; left; rename_i hc; rw [c2.1]; exact hc.2
            · right; left; obtain ⟨a, -, c2, -⟩ := c2; rw [c2]
          · rename_i hno
            left
            rw [c2.1]
            show new.lookup x0.1 = none
            cases hl : new.lookup x0.1 with
            | none => rfl
            | some f =>
              cases hww : x0.2.2.waiting with
              | none => exact absurd hww hw
              | some r => exact absurd hww (hno f r hl)
      change s'.frame = none
      have hgot : step k s .got = if s.processed = true ∨ s.stop = true then
          (if s.frame ≠ none then Outcome.ok ({ s with processed := false, frame := none }, Out.got true)
            else .ok ({ s with processed := false }, .got false)) else .ok (s, .got false) := rfl
      rw [hgot] at g1
      rcases hdone with hd | hd
      · split at g1
        · rw [if_neg (by simp [hd])] at g1
          simp only [Outcome.ok.injEq, Prod.mk.injEq] at g1
          rw [← g1.1]; exact hd
        · simp only [Outcome.ok.injEq, Prod.mk.injEq] at g1
          rw [← g1.1]; exact hd
      · rw [if_pos hd] at g1
        split at g1
        · simp only [Outcome.ok.injEq, Prod.mk.injEq] at g1
          rw [← g1.1]
        · rename_i hn
          simp only [Outcome.ok.injEq, Prod.mk.injEq] at g1
          rw [← g1.1]
          simpa using hn
    have hcnt := collect_count t'
    have hsh := single_holders _ _ _ s1
    rw [(free_iff _).1 hfree] at hcnt
    rw [e2, ho] at h0 ⊢
    rw [loop, if_neg (by omega)]
    simp only [s1, Outcome.bind_ok]
    rw [show ((holders o : Int) - ((collect t').2 : Nat)) = 0 by omega]
    cases sched <;> exact ⟨_, _, by rw [loop, if_pos (by omega), Outcome.bind_ok]⟩

/-- Recorded: as long as a running packetiser that took a frame's predecessor does not ask, the transmitter waits for it, and with it all
others. -/
theorem quiet_packetiser_blocks (n : Nat) (l : Sources) (h : ∃ x ∈ l, x.2.2.frame ≠ none ∧ x.2.2.processed = false ∧ x.2.2.stop = false) :
    loop (List.replicate n []) l (holders l) = .hang := by
  induction n generalizing l with
  | zero =>
    rw [List.replicate_zero, loop, if_neg]
    intro h0
    have : Free l := (free_iff l).2 (by omega)
    obtain ⟨x, hx, hf, -⟩ := h
    exact hf (this x hx)
  | succ n ih =>
    rw [List.replicate_succ, loop, if_neg]
    · simp only [single, Outcome.bind_ok]
      have hc := collect_count l
      rw [show ((holders l : Int) - ((collect l).2 : Nat)) = ((holders (collect l).1 : Nat) : Int) by omega]
      apply ih
      obtain ⟨x, hx, hf, hp, hs⟩ := h
      obtain ⟨i, hi⟩ := List.mem_iff_getElem?.1 hx
      obtain ⟨j, k, s⟩ := x
      obtain ⟨s', out, g1, g2⟩ := (collect_entries l).2 i j k s hi
      refine ⟨(j, k, s'), List.mem_of_getElem? g2, ?_⟩
      have hgot : step k s .got = if s.processed = true ∨ s.stop = true then
          (if s.frame ≠ none then Outcome.ok ({ s with processed := false, frame := none }, Out.got true)
            else .ok ({ s with processed := false }, .got false)) else .ok (s, .got false) := rfl
      simp only at hp hs
      rw [hgot, if_neg (by simp [hp, hs])] at g1
      simp only [Outcome.ok.injEq, Prod.mk.injEq] at g1
      rw [← g1.1]
      exact ⟨hf, hp, hs⟩
    · intro h0
      have : Free l := (free_iff l).2 (by omega)
      obtain ⟨x, hx, hf, -⟩ := h
      exact hf (this x hx)

/-! ## Cases -/

example : (match processFrames [(1, ⟨[1, 2], 2, 0⟩), (2, ⟨[0, 0, 1, 9], 4, 0⟩)] [[(1, .trigger)], [(2, .stop)]]
      [(1, .plain, { waiting := some 9, stop := false }), (2, .h26x, { stop := false }), (3, .plain, {})] with
    | .ok (l, b) => (l.map fun x => (x.2.2.frame.isSome, x.2.2.stop), b)
    | _ => ([], false)) = ([(false, false), (false, true), (false, true)], true) := by decide +kernel

/-- A source that still has a frame keeps it, and nothing new counts as offered to it; the others get theirs. -/
theorem offer_entries (new : List (Nat × Frame)) (l : Sources) :
    (offer new l).1 = l.map (fun x => (x.1, x.2.1, { x.2.2 with frame := x.2.2.frame.or (new.lookup x.1) })) ∧
    (offer new l).2 = l.countP fun x => x.2.2.frame.isNone && (new.lookup x.1).isSome := by
  induction l with
  | nil => exact ⟨rfl, rfl⟩
  | cons x l ih =>
    obtain ⟨j, k, s⟩ := x
    obtain ⟨e1, e2⟩ := ih
    unfold offer
    cases hf : s.frame with
    | none =>
      have hs : ({ s with frame := none } : Src) = s := by cases s; simp only at hf; rw [hf]
      cases hl : new.lookup j <;> simp [hl, hf, hs, e1, e2, List.countP_cons]
    | some g =>
      have hs : ({ s with frame := some g } : Src) = s := by cases s; simp only at hf; rw [hf]
      cases hl : new.lookup j <;> simp [hl, hf, hs, e1, e2, List.countP_cons]

end Lms.Sources
