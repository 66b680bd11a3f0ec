import Verif.NetStats.Model
import Mathlib.Tactic.Linarith
import Mathlib.Tactic.NormNum

/-!
# C64: keep-alives, the end of a stream, and when statistics are measured
-/

namespace Lms.NetStats

/-- Spec: the timeout of a session in seconds: what the server said, 60 if nothing (RFC 2326). -/
def rtspTimeout (t : Nat) : Nat := if t = 0 then 60 else t

/-- Spec: how late (in microseconds) a keep-alive may be sent by the receiver's own plan. -/
def slack (t : Nat) : Nat := if rtspTimeout t ≤ 5 then (rtspTimeout t - 1) * 1000000 else 5000000

/-- C64: for timeouts the arithmetic can hold the delay is five seconds less than the timeout. -/
theorem keepDelay_exact (dflt t : Nat) (h6 : 6 ≤ t) (ht : t < 4300) : keepDelay dflt t = (t - 5) * 1000000 := by
  unfold keepDelay
  simp only
  rw [if_neg (by omega : ¬ t = 0), if_neg (by omega : ¬ t ≤ 5)]
  omega

/-- C64: whatever the timeout, the next keep-alive is planned before it, with room. -/
theorem keepDelay_in_time (dflt t : Nat) (hd : dflt = 60 ∨ dflt = 30) : keepDelay dflt t + slack t ≤ rtspTimeout t * 1000000 := by
  unfold keepDelay slack rtspTimeout
  simp only
  by_cases h0 : t = 0
  · subst h0
    rcases hd with rfl | rfl <;> decide
  · rw [if_neg h0, if_neg h0]
    by_cases h5 : t ≤ 5
    · rw [if_pos h5, if_pos h5]; omega
    · rw [if_neg h5, if_neg h5]
      have := Nat.mod_le ((t - 5) * 1000000) (2 ^ 32)
      omega

/-- Spec: each of the times (last first) is less than `g` after the one before it, the first less than `g` after `t0`. -/
def GapsBelow (g t0 : Nat) : List Nat → Prop
  | [] => True
  | [x] => x < t0 + g
  | x :: y :: l => x < y + g ∧ GapsBelow g t0 (y :: l)

/-- The last of the times. -/
def lastTime (t0 : Nat) : List Nat → Nat
  | [] => t0
  | x :: _ => x

theorem gaps_cons (g t0 x : Nat) (l : List Nat) (h : GapsBelow g t0 l) (hx : x < lastTime t0 l + g) : GapsBelow g t0 (x :: l) := by
  cases l with
  | nil => exact hx
  | cons y l => exact ⟨hx, h⟩

/-- Not so late that the plan fails. -/
def Prompt (t : Nat) : PlayOp → Prop
  | .keep late => late < slack t
  | _ => True

/-- C64: while the tasks run with less delay than the plan has room for, the server hears from the receiver within its timeout,
counted from the answer to PLAY and from every keep-alive on, as long as the session is played. -/
theorem keep_alives_in_time (now t : Nat) (dur : ℚ) (ops : List PlayOp) (hl : ∀ o ∈ ops, Prompt t o) (s s' : Play) (hs : play now t dur true = .ok s)
    (e : playRun s ops = .ok s') : GapsBelow (rtspTimeout t * 1000000) now s'.sent := by
  have key : ∀ (ops : List PlayOp) (s : Play), (∀ o ∈ ops, Prompt t o) → s.timeout = t → GapsBelow (rtspTimeout t * 1000000) now s.sent →
      (∀ d, s.keepDue = some d → d + slack t ≤ lastTime now s.sent + rtspTimeout t * 1000000) → playRun s ops = .ok s' →
      GapsBelow (rtspTimeout t * 1000000) now s'.sent := by
    intro ops
    induction ops with
    | nil => intro s _ _ hg _ e; simp only [playRun, Outcome.ok.injEq] at e; rw [← e]; exact hg
    | cons o ops ih =>
      intro s hp ht hg hd e
      rw [playRun] at e
      have hp' : ∀ o ∈ ops, Prompt t o := fun o ho => hp o (List.mem_cons_of_mem _ ho)
      cases o with
      | keep late =>
        have hlate : late < slack t := hp _ List.mem_cons_self
        rw [playStep.eq_def] at e; dsimp only at e
        cases hk : s.keepDue with
        | none => simp only [hk, Outcome.bind_ok] at e; exact ih s hp' ht hg hd e
        | some d =>
          simp only [hk] at e
          by_cases hf : s.freed = true
          · rw [if_pos hf] at e; cases e
          · rw [if_neg hf, Outcome.bind_ok] at e
            have := hd d hk
            refine ih { s with sent := (d + late) :: s.sent, keepDue := some (d + late + keepDelay 30 s.timeout) } hp' ht ?_ ?_ e
            · exact gaps_cons _ _ _ _ hg (by omega)
            · intro d' hd'
              simp only [Option.some.injEq] at hd'
              rw [← hd', ht]
              have := keepDelay_in_time 30 t (Or.inr rfl)
              simp only [lastTime]
              omega
      | timer =>
        rw [playStep.eq_def] at e; dsimp only at e
        cases hk : s.timerDue with
        | none => simp only [hk, Outcome.bind_ok] at e; exact ih s hp' ht hg hd e
        | some d =>
          simp only [hk] at e
          by_cases hf : s.freed = true
          · rw [if_pos hf] at e; cases e
          · rw [if_neg hf, Outcome.bind_ok] at e
            exact ih { s with freed := true, timerDue := none } hp' ht hg hd e
      | delete =>
        rw [playStep, Outcome.bind_ok] at e
        exact ih { s with keepDue := none, timerDue := none } hp' ht hg (by intro d hd'; cases hd') e
  have hs' : ∃ x, s = { timeout := t, timerDue := x, keepDue := some (now + keepDelay 60 t) } := by
    unfold play at hs
    cases hx : durDelay dur with
    | ub => rw [hx] at hs; cases hs
    | hang => rw [hx] at hs; cases hs
    | ok x =>
      simp only [hx, Outcome.map_ok, Outcome.ok.injEq] at hs
      exact ⟨x.map (now + ·), by rw [← hs]; rfl⟩
  obtain ⟨x, hs'⟩ := hs'
  subst hs'
  refine key ops { timeout := t, timerDue := x, keepDue := some (now + keepDelay 60 t) } hl rfl trivial ?_ e
  intro d hd
  simp only [Option.some.injEq] at hd
  have := keepDelay_in_time 60 t (Or.inl rfl)
  simp only [lastTime]
  omega

/-- C64: and they go on: after any number of prompt keep-alives there is a next one planned. -/
theorem keep_alives_go_on (lates : List Nat) (s : Play) (hf : s.freed = false) (d : Nat) (hk : s.keepDue = some d) :
    ∃ s', playRun s (lates.map .keep) = .ok s' ∧ s'.sent.length = s.sent.length + lates.length ∧ s'.keepDue.isSome := by
  induction lates generalizing s d with
  | nil => exact ⟨s, rfl, rfl, by rw [hk]; rfl⟩
  | cons a l ih =>
    obtain ⟨s', e, h1, h2⟩ := ih { s with sent := (d + a) :: s.sent, keepDue := some (d + a + keepDelay 30 s.timeout) } hf _ rfl
    refine ⟨s', ?_, ?_, h2⟩
    · rw [List.map_cons, playRun, playStep]
      simp only [hk]
      rw [if_neg (by rw [hf]; decide), Outcome.bind_ok]
      exact e
    · rw [h1]; simp only [List.length_cons]; omega

/-- C64: a stream of known duration is ended not before it and at most two seconds later. -/
theorem stream_ends_after_duration (d : ℚ) (h0 : 0 < d) (hd : d < 4292) :
    ∃ n, durDelay d = .ok (some n) ∧ d * 1000000 ≤ n ∧ (n : ℚ) ≤ (d + 2) * 1000000 := by
  unfold durDelay
  rw [if_pos h0, if_pos (by norm_num; linarith)]
  refine ⟨_, rfl, ?_, ?_⟩
  · have h1 := Int.lt_floor_add_one ((d + 2) * 1000000)
    have h2 : (0 : Int) ≤ ⌊(d + 2) * 1000000⌋ := Int.floor_nonneg.mpr (by linarith)
    have h3 : ((⌊(d + 2) * 1000000⌋.toNat : Nat) : ℚ) = ((⌊(d + 2) * 1000000⌋ : Int) : ℚ) := by
      rw [← Int.cast_natCast, Int.toNat_of_nonneg h2]
    rw [h3]
    linarith
  · have h1 := Int.floor_le ((d + 2) * 1000000)
    have h2 : (0 : Int) ≤ ⌊(d + 2) * 1000000⌋ := Int.floor_nonneg.mpr (by linarith)
    have h3 : ((⌊(d + 2) * 1000000⌋.toNat : Nat) : ℚ) = ((⌊(d + 2) * 1000000⌋ : Int) : ℚ) := by
      rw [← Int.cast_natCast, Int.toNat_of_nonneg h2]
    rw [h3]
    exact h1

/-- C64: without a known duration there is no end. -/
theorem no_duration_no_end (d : ℚ) (h : d ≤ 0) : durDelay d = .ok none := by
  unfold durDelay
  rw [if_neg (by linarith)]

/-- C64, recorded: for durations from 4293 seconds on the delay is undefined. -/
theorem long_stream_undefined (d : ℚ) (h : 4293 ≤ d) : durDelay d = .ub := by
  unfold durDelay
  rw [if_pos (by linarith), if_neg (by norm_num; linarith)]

/-- C64: when keep-alives were not asked for none is ever sent. -/
theorem not_asked_no_keep_alives (now t : Nat) (dur : ℚ) (ops : List PlayOp) (s s' : Play) (hs : play now t dur false = .ok s)
    (e : playRun s ops = .ok s') : s'.sent = [] ∧ s'.keepDue = none := by
  have key : ∀ (ops : List PlayOp) (s : Play), s.sent = [] → s.keepDue = none → playRun s ops = .ok s' → s'.sent = [] ∧ s'.keepDue = none := by
    intro ops
    induction ops with
    | nil => intro s h1 h2 e; simp only [playRun, Outcome.ok.injEq] at e; rw [← e]; exact ⟨h1, h2⟩
    | cons o ops ih =>
      intro s h1 h2 e
      cases hst : playStep s o with
      | ub => rw [playRun, hst] at e; cases e
      | hang => rw [playRun, hst] at e; cases e
      | ok u =>
        rw [playRun, hst, Outcome.bind_ok] at e
        have hu : u.sent = [] ∧ u.keepDue = none := by
          cases o with
          | keep late => simp only [playStep, h2, Outcome.ok.injEq] at hst; rw [← hst]; exact ⟨h1, h2⟩
          | timer =>
            unfold playStep at hst
            cases ht : s.timerDue with
            | none => simp only [ht, Outcome.ok.injEq] at hst; rw [← hst]; exact ⟨h1, h2⟩
            | some x =>
              simp only [ht] at hst
              split at hst
              · cases hst
              · simp only [Outcome.ok.injEq] at hst; rw [← hst]; exact ⟨h1, h2⟩
          | delete => simp only [playStep, Outcome.ok.injEq] at hst; rw [← hst]; exact ⟨h1, rfl⟩
        exact ih u hu.1 hu.2 e
  unfold play at hs
  cases hd : durDelay dur with
  | ub => rw [hd] at hs; cases hs
  | hang => rw [hd] at hs; cases hs
  | ok x =>
    rw [hd, Outcome.map_ok] at hs
    simp only [Outcome.ok.injEq] at hs
    refine key ops s ?_ ?_ e
    · rw [← hs]
    · rw [← hs]; rfl

example : ∃ s s', play 100 0 0 false = .ok s ∧ playRun s [.keep 7, .timer, .keep 0, .delete] = .ok s' ∧ s'.sent = [] := by
  refine ⟨{ timeout := 0, timerDue := none, keepDue := none }, { timeout := 0 }, ?_, rfl, rfl⟩
  unfold play
  rw [show durDelay 0 = .ok none by unfold durDelay; rw [if_neg (by norm_num)], Outcome.map_ok]
  rfl

/-- C64, recorded: when the duration is over the client is freed with its keep-alive still planned, and the next keep-alive uses
the freed client. -/
theorem keep_alive_after_end (s : Play) (d k late : Nat) (hf : s.freed = false) (ht : s.timerDue = some d) (hk : s.keepDue = some k) :
    playRun s [.timer, .keep late] = .ub := by
  rw [playRun, playStep]
  simp [ht, hf, Outcome.bind_ok, playRun, playStep, hk, Outcome.bind]

/-- C64, recorded: timeouts the arithmetic cannot hold: 4300 seconds make 32.7 milliseconds, 67108869 none at all. -/
theorem long_timeouts : keepDelay 60 4299 = 4294000000 ∧ keepDelay 60 4300 = 32704 ∧ keepDelay 60 67108869 = 0 := by decide

/-! ## Examples -/

example : keepDelay 60 0 = 55000000 ∧ keepDelay 30 0 = 25000000 ∧ keepDelay 60 60 = 55000000 ∧ keepDelay 60 3 = 1000000 := by decide
example : slack 0 = 5000000 ∧ slack 3 = 2000000 ∧ slack 60 = 5000000 := by decide

/-- A session played: two keep-alives. -/
theorem play_example : ∃ s s', play 100 0 0 true = .ok s ∧ playRun s [.keep 7, .keep 0] = .ok s' ∧ s'.sent = [80000107, 55000107] := by
  refine ⟨{ timeout := 0, timerDue := none, keepDue := some (100 + keepDelay 60 0) }, _, ?_, rfl, rfl⟩
  unfold play
  rw [no_duration_no_end 0 (le_refl _), Outcome.map_ok]
  rfl

/-- A stream of ten seconds with keep-alives: both tasks are planned. -/
theorem end_example : ∃ s, play 0 60 10 true = .ok s ∧ s.timerDue = some 12000000 ∧ s.keepDue = some 55000000 ∧ s.freed = false := by
  refine ⟨{ timeout := 60, timerDue := some 12000000, keepDue := some 55000000 }, ?_, rfl, rfl, rfl⟩
  unfold play durDelay
  rw [if_pos (by norm_num : (10 : ℚ) > 0), if_pos (by norm_num : ((10 : ℚ) + 2) * 1000000 < 2 ^ 32)]
  have : ⌊((10 : ℚ) + 2) * 1000000⌋.toNat = 12000000 := by
    have : ((10 : ℚ) + 2) * 1000000 = ((12000000 : Int) : ℚ) := by norm_num
    rw [this, Int.floor_intCast]; rfl
  rw [this, Outcome.map_ok]
  rfl

/-! ## The pace of measurements -/

/-- C65: the delay is exact as long as it fits, though the present is kept in 32 bits. -/
theorem statDelay_exact (next now : Nat) (hn : next < 2 ^ 63) (hn' : now < 2 ^ 63) (h1 : next < now + 2 ^ 31) (h2 : now ≤ next + 2 ^ 31) :
    statDelay next now = (next : Int) - now := by
  unfold statDelay toInt32
  have hmod : (next + 2 ^ 64 - now % 2 ^ 32) % 2 ^ 64 % 2 ^ 32 = (next + 2 ^ 64 - now % 2 ^ 32) % 2 ^ 32 :=
    Nat.mod_mod_of_dvd _ ⟨2 ^ 32, by norm_num⟩
  rw [hmod]
  by_cases h : now ≤ next
  · have : (next + 2 ^ 64 - now % 2 ^ 32) % 2 ^ 32 = next - now := by omega
    rw [this, if_pos (by omega)]
    omega
  · have : (next + 2 ^ 64 - now % 2 ^ 32) % 2 ^ 32 = next + 2 ^ 32 - now := by omega
    rw [this, if_neg (by omega)]
    omega

/-- C65: while each measurement is less than a second late, the `k`-th one happens `k` seconds after the start and as late as its task: delays do not add up. -/
theorem stats_do_not_drift (start : Nat) (lates : List Nat) (h : ∀ x ∈ lates, x < 1000000) (hs : start + lates.length * 1000000 + 1000000 < 2 ^ 63) :
    ∀ k x, lates[k]? = some x → (statTimes start start lates)[k]? = some (start + (k + 1) * 1000000 + x) := by
  have key : ∀ (lates : List Nat) (next now : Nat), (∀ x ∈ lates, x < 1000000) → next ≤ now → now < next + 1000000 → next + lates.length * 1000000 + 1000000 < 2 ^ 63 →
      ∀ k x, lates[k]? = some x → (statTimes next now lates)[k]? = some (next + (k + 1) * 1000000 + x) := by
    intro lates
    induction lates with
    | nil => intro next now _ _ _ _ k x hx; simp at hx
    | cons a l ih =>
      intro next now ha h1 h2 hb k x hx
      simp only [List.length_cons] at hb
      rw [statTimes]
      have ha0 := ha a List.mem_cons_self
      have hex := statDelay_exact (next + 1000000) now (by omega) (by omega) (by omega) (by omega)
      have ht : now + (statDelay (next + 1000000) now).toNat + a = next + 1000000 + a := by rw [hex]; omega
      rw [ht]
      cases k with
      | zero =>
        simp only [List.getElem?_cons_zero, Option.some.injEq] at hx ⊢
        omega
      | succ k =>
        rw [List.getElem?_cons_succ] at hx ⊢
        rw [ih (next + 1000000) _ (fun y hy => ha y (List.mem_cons_of_mem _ hy)) (by omega) (by omega) (by omega) k x hx]
        congr 1
        ring
  exact key lates start start h (Nat.le_refl _) (by omega) hs

/-- C65, recorded: after a pause of 36 minutes (the machine slept, say) the next measurement waits for another 35. -/
theorem pause_then_silence : statDelay 1000000 2160000000 = 2135967296 := by decide

example : statTimes 5000000000 5000000000 [3, 0, 999999] = [5001000003, 5002000000, 5003999999] := by decide

end Lms.NetStats
