import Verif.LinkRace.Lemmas

/-! C91: which schedules of calls and rounds are safe, and what goes wrong in the others. -/

namespace Lms.LinkRace

theorem step_inv {s : S} (h : Inv s) (op : Op) (hc : Careful s op) : ∃ t a, s.step op = .ok (t, a) ∧ Inv t := by
  cases op with
  | connect => exact startConnect_inv h
  | disconnectR => exact startCutR_inv h hc
  | disconnectW => exact startCutW_inv h hc
  | ctl => exact control_inv h
  | wRound => obtain ⟨t, h1, h2⟩ := wRound_inv h hc; exact ⟨t, none, by simp [S.step, h1], h2⟩
  | wStep => obtain ⟨t, h1, h2⟩ := wStep_inv h; exact ⟨t, none, by simp [S.step, h1], h2⟩
  | wUse => exact ⟨s, none, by simp [S.step, wUse_inv h], h⟩
  | wEnd b => obtain ⟨t, h1, h2⟩ := wEnd_inv h b; exact ⟨t, none, by simp [S.step, h1], h2⟩
  | rRound y => obtain ⟨t, h1, h2⟩ := rRound_inv h y hc; exact ⟨t, none, by simp [S.step, h1], h2⟩
  | rStep n => obtain ⟨t, h1, h2⟩ := rStep_inv h n; exact ⟨t, none, by simp [S.step, h1], h2⟩
  | rUse => exact ⟨s, none, by simp [S.step, rUse_inv h], h⟩
  | rEnd => obtain ⟨t, h1, h2⟩ := rEnd_inv h; exact ⟨t, none, by simp [S.step, h1], h2⟩

theorem run_inv : ∀ (ops : List Op) {s : S}, Inv s → CarefulRun s ops → ∃ t l, runOps S.step s ops = .ok (t, l) ∧ Inv t := by
  intro ops
  induction ops with
  | nil => intro s h _; exact ⟨s, [], rfl, h⟩
  | cons op ops ih =>
    intro s h hc
    obtain ⟨t, a, h1, h2⟩ := step_inv h op hc.1
    obtain ⟨u, l, h3, h4⟩ := ih h2 (hc.2 t a h1)
    exact ⟨u, a :: l, by simp [runOps, h1, h3], h4⟩

/-- **C91.** In a careful schedule nothing undefined happens, however the three threads interleave. -/
theorem careful_schedules_are_safe (ops : List Op) (hc : CarefulRun .init ops) :
    ∃ s l, runOps S.step .init ops = .ok (s, l) := by
  obtain ⟨s, l, h, _⟩ := run_inv ops init_inv hc
  exact ⟨s, l, h⟩

theorem reach_inv {ops : List Op} (hc : CarefulRun .init ops) {s : S} {l} (hr : runOps S.step .init ops = .ok (s, l)) : Inv s := by
  obtain ⟨t, l', h, hi⟩ := run_inv ops init_inv hc
  rw [hr] at h
  cases h
  exact hi

theorem holdsW_iff {s : S} {q : Nat} : s.HoldsW q ↔ s.wq = some q := by
  refine ⟨fun h => ?_, wq_eq⟩
  unfold S.HoldsW at h
  simp [S.wq, h]

theorem holdsR_iff {s : S} {q : Nat} : s.HoldsR q ↔ s.rq = some q := by
  unfold S.HoldsR S.rq
  cases s.rE <;> simp

/-- What an answer says. -/
def Means (s t : S) : Answer → Prop
  | .connect true => ∃ q, t.Linked q ∧ ¬ s.Linked q
  | .connect false => ∀ q, t.Linked q ↔ s.Linked q
  | .reader true => (∀ q, ¬ t.HoldsR q) ∧ ∀ q, t.HoldsW q ↔ s.HoldsW q
  | .reader false => False
  | .writer true => (∀ q, ¬ t.HoldsW q) ∧ ∀ q, t.HoldsR q ↔ s.HoldsR q
  | .writer false => False

/-- **C91.** In a careful schedule the answers are true: when `connect` says so the filters are connected
by a new queue, and when it refuses the connection is as before; the calls that disconnect never fail and
leave the other filter's end alone. -/
theorem careful_answers_are_true (ops : List Op) (hc : CarefulRun .init ops) (s : S) (l)
    (hr : runOps S.step .init ops = .ok (s, l)) (op : Op) (ho : Careful s op) (t : S) (a : Answer)
    (hs : s.step op = .ok (t, some a)) : Means s t a := by
  have h := reach_inv hc hr
  have hm : ∀ {x : Outcome S}, x.map (fun t => (t, (none : Option Answer))) ≠ .ok (t, some a) := by
    intro x hx
    cases x <;> simp [Outcome.map] at hx
  cases op with
  | connect =>
    simp only [S.step, S.startConnect] at hs
    split at hs
    · split at hs <;> cases hs
    · cases hs
  | disconnectR =>
    simp only [S.step, S.startCutR] at hs
    split at hs
    case isFalse => cases hs
    case isTrue hi =>
      split at hs
      case h_1 he => cases hs; exact ⟨fun q => (by rintro ⟨o, ho, _⟩; rw [he] at ho; cases ho), fun q => Iff.rfl⟩
      case h_2 o he =>
        rcases hq : (s.obj o).queue with _ | q
        · obtain ⟨p, hp⟩ := h.rNull o he hq
          rw [hi.1] at hp; cases hp
        · have := h.reg o he
          rw [hq] at this
          rw [this] at hs
          simp only [hq] at hs
          cases hs
  | disconnectW =>
    simp only [S.step, S.startCutW] at hs
    split at hs
    case isFalse => cases hs
    case isTrue hi =>
      split at hs
      case h_1 he => cases hs; exact ⟨fun q hq => (by unfold S.HoldsW at hq; rw [he] at hq; cases hq), fun q => Iff.rfl⟩
      case h_2 he =>
        rcases h.wNull he with ⟨q, g⟩ | ⟨q, o, g⟩ <;> rw [hi.1] at g <;> cases g
      case h_3 => cases hs
  | ctl =>
    simp only [S.step, S.control] at hs
    cases hcc : s.c with
    | idle => rw [hcc] at hs; cases hs
    | again =>
      rw [hcc] at hs
      simp only [] at hs
      split at hs
      · cases hs
      · split at hs <;> cases hs
    | ask o =>
      rw [hcc] at hs
      simp only [] at hs
      cases hx : s.rConnected o with
      | ok b =>
        rw [hx] at hs
        cases b
        · cases hs
        · cases hs; exact fun q => Iff.rfl
      | ub => rw [hx] at hs; cases hs
      | hang => rw [hx] at hs; cases hs
    | make =>
      rw [hcc] at hs
      simp only [] at hs
      split at hs
      · cases hs; exact fun q => Iff.rfl
      · cases hs
    | put q =>
      rw [hcc] at hs
      simp only [] at hs
      obtain ⟨_, hw, _⟩ := h.cPut q hcc
      split at hs
      · cases hs
      · split at hs
        · cases hs
          intro p
          constructor
          · rintro ⟨hx, _⟩; cases hx
          · rintro ⟨hx, _⟩; unfold S.HoldsW at hx; rw [hw] at hx; cases hx
        · cases hs
    | attach q o => rw [hcc] at hs; cases hs
    | flag q o =>
      rw [hcc] at hs
      obtain ⟨h1, h2, h3, h4⟩ := h.cFlag q o hcc
      simp only [h1] at hs
      cases hs
      refine ⟨q, ⟨wq_eq h2, ⟨o, h3, h4⟩, upd_eq _ _ _⟩, ?_⟩
      rintro ⟨_, _, hx⟩
      rw [h1] at hx; cases hx
    | leave o =>
      rw [hcc] at hs
      simp only [] at hs
      split at hs
      · cases hs
      · split at hs <;> cases hs
    | end1 o q => exact absurd hcc (h.cEnd1 o q)
    | end2 o q b => exact absurd hcc (h.cEnd2 o q b)
    | cutR1 o q =>
      rw [hcc] at hs
      simp only [] at hs
      cases hx : s.connected q <;> rw [hx] at hs <;> cases hs
    | cutR2 o q b =>
      rw [hcc] at hs
      obtain ⟨h1, h2, h3⟩ := h.cCutR2 o q b hcc
      simp only [S.letGo, h3, Outcome.bind_ok] at hs
      cases hs
      exact ⟨fun p => (by rintro ⟨x, hx, _⟩; cases hx), fun p => Iff.rfl⟩
    | cutW1 q =>
      rw [hcc] at hs
      simp only [] at hs
      cases hx : s.connected q <;> rw [hx] at hs <;> cases hs
    | cutW2 q b =>
      rw [hcc] at hs
      obtain ⟨h1, h3⟩ := h.cCutW2 q b hcc
      simp only [S.letGo, h3, Outcome.bind_ok] at hs
      cases hs
      exact ⟨fun p hp => (by cases hp), fun p => Iff.rfl⟩
  | wRound => exact absurd hs hm
  | wStep => exact absurd hs hm
  | wUse => exact absurd hs hm
  | wEnd b => exact absurd hs hm
  | rRound b => exact absurd hs hm
  | rStep b => exact absurd hs hm
  | rUse => exact absurd hs hm
  | rEnd => exact absurd hs hm

/-- **C91.** In a careful schedule a connection lasts until a call that disconnects it returns. -/
theorem connection_lasts (ops : List Op) (hc : CarefulRun .init ops) (s : S) (l)
    (hr : runOps S.step .init ops = .ok (s, l)) (op : Op) (t : S) (a : Option Answer)
    (hs : s.step op = .ok (t, a)) (ha : a = none ∨ ∃ b, a = some (.connect b)) (q : Nat) (hq : s.Linked q) : t.Linked q := by
  have h := reach_inv hc hr
  obtain ⟨hw, ⟨o, hE, hO⟩, hl⟩ := hq
  have hwq := holdsW_iff.1 hw
  have hrq : s.rq = some q := rq_of hE hO
  have mk : ∀ {t : S}, t.wE = s.wE → t.rE = s.rE → t.obj o = s.obj o → t.heap q = s.heap q → t.Linked q := by
    intro t h1 h2 h3 h4
    refine ⟨?_, ⟨o, ?_, ?_⟩, ?_⟩
    · unfold S.HoldsW; rw [h1]; exact hw
    · rw [h2]; exact hE
    · rw [h3]; exact hO
    · rw [h4]; exact hl
  have unmap : ∀ {x : Outcome S}, x.map (fun t => (t, (none : Option Answer))) = .ok (t, a) → x = .ok t := by
    intro x hx
    cases x <;> simp [Outcome.map] at hx
    rw [hx.1]
  cases op with
  | connect =>
    simp only [S.step, S.startConnect] at hs
    split at hs
    · split at hs <;> cases hs <;> exact mk rfl rfl rfl rfl
    · cases hs; exact mk rfl rfl rfl rfl
  | disconnectR =>
    simp only [S.step, S.startCutR] at hs
    split at hs
    · split at hs
      · cases hs; exact mk rfl rfl rfl rfl
      · split at hs
        · cases hs; exact mk rfl rfl rfl rfl
        · split at hs
          · cases hs; simp at ha
          · cases hs; exact mk rfl rfl rfl rfl
    · cases hs; exact mk rfl rfl rfl rfl
  | disconnectW =>
    simp only [S.step, S.startCutW] at hs
    split at hs
    · split at hs <;> cases hs <;> exact mk rfl rfl rfl rfl
    · cases hs; exact mk rfl rfl rfl rfl
  | ctl =>
    simp only [S.step, S.control] at hs
    cases hcc : s.c with
    | idle => rw [hcc] at hs; cases hs; exact mk rfl rfl rfl rfl
    | again =>
      rw [hcc] at hs
      simp only [] at hs
      split at hs
      · cases hs; exact mk rfl rfl rfl rfl
      · split at hs <;> cases hs; exact mk rfl rfl rfl rfl
    | ask o =>
      rw [hcc] at hs
      simp only [] at hs
      cases hx : s.rConnected o with
      | ok b => rw [hx] at hs; cases b <;> cases hs <;> exact mk rfl rfl rfl rfl
      | ub => rw [hx] at hs; cases hs
      | hang => rw [hx] at hs; cases hs
    | make =>
      rw [hcc] at hs
      simp only [] at hs
      rw [show s.wE = some (some q) from hw] at hs
      simp only [Option.isSome_some, if_true] at hs
      cases hs; exact mk hw.symm rfl rfl rfl
    | put p =>
      obtain ⟨_, g, _⟩ := h.cPut p hcc
      rw [show s.wE = some (some q) from hw] at g; cases g
    | attach p x =>
      obtain ⟨_, g, _⟩ := h.cAttach p x hcc
      rw [show s.wE = some (some q) from hw] at g; cases g
    | flag p x =>
      obtain ⟨g1, g2, _⟩ := h.cFlag p x hcc
      rw [hwq] at g2; injection g2 with g2; subst g2
      rw [g1] at hl; cases hl
    | leave x =>
      rw [hcc] at hs
      simp only [(h.cLeave x hcc).1, if_true] at hs
      cases hs; exact mk rfl (h.cLeave x hcc).1.symm rfl rfl
    | end1 o q => exact absurd hcc (h.cEnd1 o q)
    | end2 o q b => exact absurd hcc (h.cEnd2 o q b)
    | cutR1 o q =>
      rw [hcc] at hs
      simp only [] at hs
      cases hx : s.connected q <;> rw [hx] at hs <;> cases hs
      exact mk rfl rfl rfl rfl
    | cutR2 x p b =>
      rw [hcc] at hs
      obtain ⟨h1, h2, h3⟩ := h.cCutR2 x p b hcc
      simp only [S.letGo, h3, Outcome.bind_ok] at hs
      cases hs
      simp at ha
    | cutW1 q =>
      rw [hcc] at hs
      simp only [] at hs
      cases hx : s.connected q <;> rw [hx] at hs <;> cases hs
      exact mk rfl rfl rfl rfl
    | cutW2 p b =>
      rw [hcc] at hs
      obtain ⟨h1, h3⟩ := h.cCutW2 p b hcc
      simp only [S.letGo, h3, Outcome.bind_ok] at hs
      cases hs
      simp at ha
  | wRound =>
    have hs := unmap hs
    unfold S.wRound at hs
    rw [show s.wE = some (some q) from hw] at hs
    simp only [S.connected, hl, Outcome.bind_ok, if_true] at hs
    split at hs <;> cases hs
    · exact mk hw.symm rfl rfl rfl
    · exact mk rfl rfl rfl rfl
  | wStep =>
    have hs := unmap hs
    unfold S.wStep at hs
    split at hs
    · rename_i p _
      cases hx : s.connected p <;> rw [hx] at hs
      · simp only [Outcome.bind_ok] at hs
        split at hs <;> cases hs
        exact mk rfl rfl rfl rfl
      · cases hs
      · cases hs
    · rename_i p _
      cases hx : s.connected p <;> rw [hx] at hs <;> cases hs
      exact mk rfl rfl rfl rfl
    · rename_i p b hp
      obtain ⟨g1, g2, _⟩ := h.wDrop2 p b hp
      rw [hwq] at g1; injection g1 with g1; subst g1
      rw [g2] at hl; cases hl
    · cases hs; exact mk rfl rfl rfl rfl
  | wUse => have hs := unmap hs; rw [wUse_inv h] at hs; cases hs; exact mk rfl rfl rfl rfl
  | wEnd b =>
    have hs := unmap hs
    unfold S.wEnd at hs
    rw [show s.wE = some (some q) from hw] at hs
    split at hs
    · split at hs
      · cases hs; exact mk rfl rfl rfl rfl
      · cases b
        · cases hs; exact mk hw.symm rfl rfl rfl
        · simp only [S.touch, hl, Outcome.map_ok] at hs
          cases hs; exact mk hw.symm rfl rfl rfl
    · cases hs; exact mk rfl rfl rfl rfl
  | rRound y =>
    have hs := unmap hs
    unfold S.rRound at hs
    split at hs
    · rw [hE] at hs
      have e : s.readTime o y = .ok () := by
        cases y <;> simp [S.readTime, hO, S.touch, hl]
      simp only [hO, e, S.rConnected, S.connected, hl, Outcome.bind_ok, if_true] at hs
      cases hs; exact mk rfl hE.symm rfl rfl
    · cases hs; exact mk rfl rfl rfl rfl
  | rStep n =>
    have hs := unmap hs
    unfold S.rStep at hs
    split at hs
    · rename_i x hx
      have := (h.rFound x hx).1
      rw [hE] at this; injection this with this; subst this
      simp only [hO, S.connected, hl, Outcome.bind_ok, if_true] at hs
      cases hs
      exact ⟨hw, ⟨o, hE, by simp [upd]⟩, hl⟩
    · rename_i x p _
      cases hx : s.connected p <;> rw [hx] at hs <;> cases hs
      exact mk rfl rfl rfl rfl
    · rename_i x p b hp
      obtain ⟨g1, g2, g3, _⟩ := h.rDrop2 x p b hp
      rw [hE] at g1; injection g1 with g1; subst g1
      rw [hO] at g2; injection g2 with g2; subst g2
      rw [g3] at hl; cases hl
    · cases hs; exact mk rfl rfl rfl rfl
  | rUse => have hs := unmap hs; rw [rUse_inv h] at hs; cases hs; exact mk rfl rfl rfl rfl
  | rEnd =>
    have hs := unmap hs
    unfold S.rEnd at hs
    split at hs
    · rename_i p n hx
      split at hs
      · cases hs; exact mk rfl rfl rfl rfl
      · split at hs
        · cases hs; exact mk rfl rfl rfl rfl
        · rw [hE] at hs
          simp only [hO, S.touch, hl, Outcome.map_ok] at hs
          split at hs
          · cases hs
          · cases hs
            exact ⟨hw, ⟨o, rfl, by simp [upd]⟩, hl⟩
    · cases hs; exact mk rfl rfl rfl rfl

/-- Every queue that was allocated is there or deleted. -/
theorem alloc_step {s t : S} {op : Op} {a : Option Answer} (ha : ∀ q, q < s.next → s.heap q ≠ .none) (hs : s.step op = .ok (t, a)) :
    ∀ q, q < t.next → t.heap q ≠ .none := by
  have lg : ∀ {p b} {u : S}, s.letGo p b = .ok u → u.next = s.next ∧ ∀ q, q < s.next → u.heap q ≠ .none := by
    intro p b u hu
    unfold S.letGo at hu
    split at hu <;> cases hu
    refine ⟨rfl, fun q hq => ?_⟩
    show upd s.heap p _ q ≠ _
    by_cases e : q = p
    · rw [e, upd_eq]; cases b <;> nofun
    · rw [upd_ne _ _ e]; exact ha q hq
  have unmap : ∀ {x : Outcome S}, x.map (fun t => (t, (none : Option Answer))) = .ok (t, a) → x = .ok t := by
    intro x hx
    cases x <;> simp [Outcome.map] at hx
    rw [hx.1]
  cases op with
  | ctl =>
    simp only [S.step, S.control] at hs
    split at hs
    case h_4 =>
      split at hs <;> cases hs
      · exact ha
      · intro q hq
        show upd s.heap s.next _ q ≠ _
        by_cases e : q = s.next
        · rw [e, upd_eq]; nofun
        · rw [upd_ne _ _ e]
          have hq : q < s.next + 1 := hq
          exact ha q (by omega)
    case h_7 p x _ =>
      split at hs <;> cases hs
      intro q hq
      show upd s.heap p _ q ≠ _
      by_cases e : q = p
      · rw [e, upd_eq]; nofun
      · rw [upd_ne _ _ e]; exact ha q hq
    case h_10 o q b _ =>
      cases hx : s.letGo q b <;> rw [hx] at hs <;> cases hs
      obtain ⟨e, g⟩ := lg hx
      intro p hp
      exact g p (e ▸ hp)
    case h_12 o q b _ =>
      cases hx : s.letGo q b <;> rw [hx] at hs <;> cases hs
      obtain ⟨e, g⟩ := lg hx
      intro p hp
      exact g p (e ▸ hp)
    case h_14 q b _ =>
      cases hx : s.letGo q b <;> rw [hx] at hs <;> cases hs
      obtain ⟨e, g⟩ := lg hx
      intro p hp
      exact g p (e ▸ hp)
    case h_1 => cases hs; exact ha
    case h_2 => repeat' split at hs
                all_goals cases hs
                all_goals exact ha
    case h_3 o _ =>
      cases hx : s.rConnected o <;> rw [hx] at hs
      · simp only [Outcome.bind_ok] at hs
        split at hs <;> cases hs <;> exact ha
      · cases hs
      · cases hs
    case h_5 => repeat' split at hs
                all_goals cases hs
                all_goals exact ha
    case h_6 => cases hs; exact ha
    case h_8 => repeat' split at hs
                all_goals cases hs
                all_goals exact ha
    case h_9 o q _ => cases hx : s.connected q <;> rw [hx] at hs <;> cases hs; exact ha
    case h_11 o q _ => cases hx : s.connected q <;> rw [hx] at hs <;> cases hs; exact ha
    case h_13 q _ => cases hx : s.connected q <;> rw [hx] at hs <;> cases hs; exact ha
  | connect =>
    simp only [S.step, S.startConnect] at hs
    repeat' split at hs
    all_goals cases hs
    all_goals exact ha
  | disconnectR =>
    simp only [S.step, S.startCutR] at hs
    repeat' split at hs
    all_goals cases hs
    all_goals exact ha
  | disconnectW =>
    simp only [S.step, S.startCutW] at hs
    repeat' split at hs
    all_goals cases hs
    all_goals exact ha
  | wRound =>
    have hs := unmap hs
    unfold S.wRound at hs
    split at hs
    · split at hs
      · cases hs; exact ha
      · cases hs; exact ha
      · rename_i q _
        cases hx : s.connected q <;> rw [hx] at hs <;> cases hs; exact ha
    · cases hs; exact ha
  | wStep =>
    have hs := unmap hs
    unfold S.wStep at hs
    split at hs
    · rename_i p _
      cases hx : s.connected p <;> rw [hx] at hs
      · simp only [Outcome.bind_ok] at hs
        split at hs <;> cases hs
        exact ha
      · cases hs
      · cases hs
    · rename_i p _
      cases hx : s.connected p <;> rw [hx] at hs <;> cases hs
      exact ha
    · rename_i p b _
      cases hx : s.letGo p b <;> rw [hx] at hs <;> cases hs
      obtain ⟨e, g⟩ := lg hx
      intro p hp
      exact g p (e ▸ hp)
    · cases hs; exact ha
  | wUse =>
    have hs := unmap hs
    unfold S.wUse at hs
    split at hs
    · rename_i p _
      cases hx : s.touch p <;> rw [hx] at hs <;> cases hs; exact ha
    · cases hs; exact ha
  | wEnd b =>
    have hs := unmap hs
    unfold S.wEnd at hs
    split at hs
    · split at hs
      · cases hs; exact ha
      · split at hs
        · rename_i p _ _
          cases hx : s.touch p <;> rw [hx] at hs <;> cases hs; exact ha
        · cases hs; exact ha
    · cases hs; exact ha
  | rRound y =>
    have hs := unmap hs
    unfold S.rRound at hs
    split at hs
    · split at hs
      · cases hs; exact ha
      · rename_i o _
        cases hx : s.readTime o y <;> rw [hx] at hs
        · simp only [Outcome.bind_ok] at hs
          cases hy : s.rConnected o <;> rw [hy] at hs
          · simp only [Outcome.bind_ok] at hs
            repeat' split at hs
            all_goals cases hs
            all_goals exact ha
          · cases hs
          · cases hs
        · cases hs
        · cases hs
    · cases hs; exact ha
  | rStep n =>
    have hs := unmap hs
    unfold S.rStep at hs
    split at hs
    · split at hs
      · cases hs; exact ha
      · rename_i p _
        cases hx : s.connected p <;> rw [hx] at hs
        · simp only [Outcome.bind_ok] at hs
          split at hs <;> cases hs <;> exact ha
        · cases hs
        · cases hs
    · rename_i x p _
      cases hx : s.connected p <;> rw [hx] at hs <;> cases hs
      exact ha
    · rename_i x p b _
      cases hx : s.letGo p b <;> rw [hx] at hs <;> cases hs
      obtain ⟨e, g⟩ := lg hx
      intro p hp
      exact g p (e ▸ hp)
    · cases hs; exact ha
  | rUse =>
    have hs := unmap hs
    unfold S.rUse at hs
    split at hs
    · rename_i p n _
      cases hx : s.touch p <;> rw [hx] at hs <;> cases hs; exact ha
    · cases hs; exact ha
  | rEnd =>
    have hs := unmap hs
    unfold S.rEnd at hs
    repeat' split at hs
    all_goals first
      | (cases hs; exact ha)
      | (rename_i p _
         cases hx : s.touch p <;> rw [hx] at hs <;> cases hs; exact ha)
      | cases hs

theorem alloc_run : ∀ (ops : List Op) {s t : S} {l}, (∀ q, q < s.next → s.heap q ≠ .none) →
    runOps S.step s ops = .ok (t, l) → ∀ q, q < t.next → t.heap q ≠ .none := by
  intro ops
  induction ops with
  | nil => intro s t l h hr; simp only [runOps] at hr; cases hr; exact h
  | cons op ops ih =>
    intro s t l h hr
    simp only [runOps] at hr
    cases hs : s.step op with
    | ok x =>
      rw [hs] at hr
      simp only [Outcome.bind_ok] at hr
      cases hs' : runOps S.step x.1 ops with
      | ok y =>
        rw [hs'] at hr
        cases hr
        exact ih (alloc_step h (a := x.2) hs) hs'
      | ub => rw [hs'] at hr; cases hr
      | hang => rw [hs'] at hr; cases hr
    | ub => rw [hs] at hr; cases hr
    | hang => rw [hs] at hr; cases hr

/-- **C91.** In a careful schedule, between calls: a queue ever made is deleted once neither filter has an
end of it and not before, unless `connect` gave it up because the reading filter still had a reader. -/
theorem queues_are_deleted_in_time (ops : List Op) (hc : CarefulRun .init ops) (s : S) (l)
    (hr : runOps S.step .init ops = .ok (s, l)) (hi : s.c = .idle) (q : Nat) (hq : q < s.next) (hl : q ∉ s.lost) :
    s.heap q = .freed ↔ ¬ s.HoldsW q ∧ ¬ s.HoldsR q := by
  have h := reach_inv hc hr
  have ha := alloc_run ops (s := .init) (by intro q hq; cases hq) hr q hq
  rw [holdsW_iff, holdsR_iff]
  constructor
  · intro hf
    constructor
    · intro hw
      obtain ⟨b, g⟩ := live_wq h hw
      rw [hf] at g; cases g
    · intro hw
      obtain ⟨b, g⟩ := live_rq h hw
      rw [hf] at g; cases g
  · rintro ⟨h1, h2⟩
    cases hx : s.heap q with
    | none => exact absurd hx ha
    | freed => rfl
    | live b =>
      rcases h.held q b hx with g | g | g | ⟨o, g⟩ | g
      · exact absurd g h1
      · exact absurd g h2
      · rw [hi] at g; cases g
      · rw [hi] at g; cases g
      · exact absurd g hl

/-- **C91.** In a careful schedule, between calls, the rounds of connected filters get frames of the queue
that connects them. -/
theorem rounds_get_frames (ops : List Op) (hc : CarefulRun .init ops) (s : S) (l)
    (hr : runOps S.step .init ops = .ok (s, l)) (hi : s.c = .idle) (q : Nat) (hq : s.Linked q) :
    (s.w = .idle → ∃ t l, runOps S.step s [.wRound, .wStep] = .ok (t, l) ∧ t.w = .use q) ∧
    (s.r = .idle → ∀ sync new, ∃ t l, runOps S.step s [.rRound sync, .rStep new] = .ok (t, l) ∧ t.r = .use q new) := by
  obtain ⟨hw, ⟨o, hE, hO⟩, hl⟩ := hq
  unfold S.HoldsW at hw
  constructor
  · intro h
    simp only [runOps, S.step, S.wRound, h, hi, CPc.holdsW, and_self, if_true, hw, S.connected, hl, Outcome.bind_ok, Outcome.map_ok, S.wStep]
    exact ⟨_, _, rfl, rfl⟩
  · intro h y n
    have e : s.readTime o y = .ok () := by cases y <;> simp [S.readTime, hO, S.touch, hl]
    simp only [runOps, S.step, S.rRound, h, hi, CPc.holdsR, and_self, if_true, hE, e, S.rConnected, hO, S.connected, hl, Outcome.bind_ok, Outcome.map_ok, S.rStep]
    exact ⟨_, _, rfl, rfl⟩

/-- **C91.** In a careful schedule, between calls, one more round of the filter that is left with an end
of a queue deletes the queue. -/
theorem next_round_cleans_up (ops : List Op) (hc : CarefulRun .init ops) (s : S) (l)
    (hr : runOps S.step .init ops = .ok (s, l)) (hi : s.c = .idle) (q : Nat) :
    (s.w = .idle → s.HoldsW q → ¬ s.HoldsR q →
      ∃ t l, runOps S.step s [.wRound, .wStep, .wStep] = .ok (t, l) ∧ t.heap q = .freed ∧ ¬ t.HoldsW q) ∧
    (s.r = .idle → s.HoldsR q → ¬ s.HoldsW q → ∀ sync new,
      ∃ t l, runOps S.step s [.rRound sync, .rStep new, .rStep new] = .ok (t, l) ∧ t.heap q = .freed ∧ ¬ t.HoldsR q) := by
  have inv := reach_inv hc hr
  constructor
  · intro h hw hn
    have hl := inv.onlyW q (holdsW_iff.1 hw) fun hx => hn (holdsR_iff.2 hx)
    unfold S.HoldsW at hw
    simp only [runOps, S.step, S.wRound, h, hi, CPc.holdsW, and_self, if_true, hw, S.connected, hl, Outcome.bind_ok, Outcome.map_ok, S.wStep,
        S.letGo, Bool.false_eq_true, if_false]
    exact ⟨_, _, rfl, upd_eq _ _ _, fun hx => by cases hx⟩
  · intro h ⟨o, hE, hO⟩ hn y n
    have hl := inv.onlyR q (rq_of hE hO) fun hx => hn (holdsW_iff.2 hx)
    have hg := inv.reg o hE
    rw [hO] at hg
    simp only [Option.isSome_some] at hg
    have e : s.readTime o y = .ok () := by cases y <;> simp [S.readTime, hO, S.touch, hl]
    simp only [runOps, S.step, S.rRound, h, hi, CPc.holdsR, and_self, if_true, hE, e, S.rConnected, hO, S.connected, hl, Outcome.bind_ok, Outcome.map_ok, S.rStep,
        S.letGo, Bool.false_eq_true, if_false, hg, Bool.true_eq_false]
    exact ⟨_, _, rfl, upd_eq _ _ _, fun ⟨_, hx, _⟩ => by cases hx⟩

end Lms.LinkRace
