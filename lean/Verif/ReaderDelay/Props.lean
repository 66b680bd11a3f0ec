import Verif.ReaderDelay.Spec
import Verif.Control.Report

/-!
# C77: the delay and loss told of a path
-/

namespace Lms.ReaderDelay

open Lms

theorem i64_ok {z y : Int} (h : i64 z = .ok y) : y = z := by
  unfold i64 at h
  split at h
  · simpa using h.symm
  · simp at h

/-- What a counted frame does. -/
theorem measure_counted {w : Int} {s s' : S} {f : F} (h : measure w s f = .ok s') (hl : 0 ≤ s.last) (hd : f.time ≠ s.last) :
    s'.last = f.time ∧
    ((w ≤ s.time + (f.time - s.last) ∧ 0 < s.n ∧ s' = ⟨average s.delay s.n, f.delay, f.time, 0, 1⟩) ∨
     (¬ (w ≤ s.time + (f.time - s.last) ∧ 0 < s.n) ∧ s' = ⟨s.avg, s.delay + f.delay, f.time, s.time + (f.time - s.last), s.n + 1⟩)) := by
  unfold measure at h
  rw [if_neg (by omega : ¬ s.last < 0)] at h
  simp only at h
  rw [if_neg (fun e => hd e.symm)] at h
  cases h1 : i64 (f.time - s.last) with
  | ub => rw [h1] at h; simp [Outcome.bind] at h
  | hang => rw [h1] at h; simp [Outcome.bind] at h
  | ok d =>
    rw [h1, Outcome.bind_ok] at h
    have hd := i64_ok h1
    subst hd
    cases h2 : i64 (s.time + (f.time - s.last)) with
    | ub => rw [h2] at h; simp [Outcome.bind] at h
    | hang => rw [h2] at h; simp [Outcome.bind] at h
    | ok t =>
      rw [h2, Outcome.bind_ok] at h
      have ht := i64_ok h2
      subst ht
      by_cases hc : s.time + (f.time - s.last) ≥ w ∧ s.n > 0
      · rw [if_pos hc] at h
        cases h3 : i64 (0 + f.delay) with
        | ub => rw [h3] at h; simp [Outcome.bind] at h
        | hang => rw [h3] at h; simp [Outcome.bind] at h
        | ok d =>
          rw [h3, Outcome.bind_ok] at h
          have hd := i64_ok h3
          simp only [Outcome.ok.injEq] at h
          subst h
          refine ⟨rfl, Or.inl ⟨hc.1, hc.2, ?_⟩⟩
          simp [hd]
      · rw [if_neg hc] at h
        cases h3 : i64 (s.delay + f.delay) with
        | ub => simp only [h3] at h; simp [Outcome.bind] at h
        | hang => simp only [h3] at h; simp [Outcome.bind] at h
        | ok d =>
          simp only [h3, Outcome.bind_ok] at h
          have hd := i64_ok h3
          simp only [Outcome.ok.injEq] at h
          subst h
          refine ⟨rfl, Or.inr ⟨hc, ?_⟩⟩
          simp [hd]

theorem tiles_push {w st c : Int} {ws : List (List (Int × Int))} {cur : List (Int × Int)} (h : Tiles w st ws cur c) (x : Int × Int)
    (hx : cur = [] ∨ x.1 - c < w) : Tiles w st ws (cur ++ [x]) c := by
  induction h with
  | last start cur h =>
    refine .last _ _ ?_
    intro y hy
    cases cur with
    | nil => simp at hy
    | cons a cur =>
      simp only [List.cons_append, List.tail_cons, List.mem_append, List.mem_singleton] at hy
      rcases hy with hy | rfl
      · exact h y hy
      · rcases hx with hx | hx
        · simp at hx
        · exact hx
  | cons start win ws cur c nxt hne h hn hw ht ih =>
    refine .cons _ _ _ _ _ nxt hne h ?_ hw (ih hx)
    rw [← List.append_assoc, List.head?_append, hn]; rfl

theorem tiles_close {w st c : Int} {ws : List (List (Int × Int))} {cur : List (Int × Int)} (h : Tiles w st ws cur c) (x : Int × Int)
    (hc : cur ≠ []) (hx : w ≤ x.1 - c) : Tiles w st (ws ++ [cur]) [x] x.1 := by
  induction h with
  | last start cur h =>
    exact .cons _ _ _ _ _ x hc h (by simp) hx (.last _ _ (by simp))
  | cons start win ws cur c nxt hne h hn hw ht ih =>
    refine .cons _ _ _ _ _ nxt hne h ?_ hw (ih hc hx)
    show ((ws ++ [cur]).flatten ++ [x]).head? = some nxt
    rw [List.flatten_append, List.head?_append]
    simp only [List.flatten_singleton]
    rw [hn]; rfl

/-- **C77.**  The average told is that of the last window that ended, and zero before: for every sequence of frames with times from
zero on, as long as no sum leaves 64 bits. -/
theorem average_of_last_window (w : Int) (f0 : F) (fs : List F) (s : S) (hpos : ∀ f ∈ f0 :: fs, 0 ≤ f.time)
    (h : run w S.init (f0 :: fs) = .ok s) :
    ∃ ws cur c, counted f0.time fs = ws.flatten ++ cur ∧ Tiles w f0.time ws cur c ∧
      s.avg = match ws.getLast? with
        | none => 0
        | some win => average (total win) win.length := by
  have main : ∀ (fs : List F) (prev : Int) (s s' : S) (done : List (Int × Int)) (ws : List (List (Int × Int))) (cur : List (Int × Int)) (c : Int),
      (∀ f ∈ fs, 0 ≤ f.time) → 0 ≤ prev → s.last = prev → done = ws.flatten ++ cur → Tiles w f0.time ws cur c →
      (s.avg = match ws.getLast? with | none => 0 | some win => average (total win) win.length) →
      s.n = cur.length → s.delay = total cur → s.time = prev - c → run w s fs = .ok s' →
      ∃ ws cur c, done ++ counted prev fs = ws.flatten ++ cur ∧ Tiles w f0.time ws cur c ∧
        s'.avg = match ws.getLast? with | none => 0 | some win => average (total win) win.length := by
    intro fs
    induction fs with
    | nil =>
      intro prev s s' done ws cur c _ _ _ hd ht ha _ _ _ hr
      simp only [run, Outcome.ok.injEq] at hr
      subst hr
      exact ⟨ws, cur, c, by simpa [counted] using hd, ht, ha⟩
    | cons f fs ih =>
      intro prev s s' done ws cur c hp h0 hl hd ht ha hn hdel htime hr
      rw [run] at hr
      cases hm : measure w s f with
      | ub => rw [hm] at hr; simp [Outcome.bind] at hr
      | hang => rw [hm] at hr; simp [Outcome.bind] at hr
      | ok s1 =>
        rw [hm, Outcome.bind_ok] at hr
        have hp' : ∀ f ∈ fs, 0 ≤ f.time := fun x hx => hp x (List.mem_cons_of_mem _ hx)
        by_cases he : f.time = prev
        · have : s1 = s := by
            unfold measure at hm
            rw [if_neg (by omega : ¬ s.last < 0)] at hm
            simp only [hl] at hm
            rw [if_pos he.symm] at hm
            simp only [Outcome.ok.injEq] at hm
            rw [← hm, ← hl]
          subst this
          rw [counted, if_pos he]
          exact ih prev s1 s' done ws cur c hp' h0 hl hd ht ha hn hdel htime hr
        · rw [counted, if_neg he]
          obtain ⟨g1, g2⟩ := measure_counted hm (by omega) (by rw [hl]; exact he)
          have hft : 0 ≤ f.time := hp f (List.mem_cons_self ..)
          rw [htime, hl] at g2
          have e0 : prev - c + (f.time - prev) = f.time - c := by omega
          rw [e0] at g2
          rcases g2 with ⟨k1, k2, rfl⟩ | ⟨k1, rfl⟩
          · have hne : cur ≠ [] := by
              intro hc; rw [hn, hc] at k2; simp at k2
            obtain ⟨ws', cur', c', r1, r2, r3⟩ := ih f.time _ s' (done ++ [(f.time, f.delay)]) (ws ++ [cur]) [(f.time, f.delay)] f.time hp' hft rfl
              (by rw [hd]; simp) (tiles_close ht (f.time, f.delay) hne k1) (by simp [hn, hdel]) (by simp) (by simp [total]) (by simp) hr
            exact ⟨ws', cur', c', by rw [← r1]; simp, r2, r3⟩
          · have hx : cur = [] ∨ (f.time, f.delay).1 - c < w := by
              by_cases hz : cur = []
              · exact Or.inl hz
              · right
                have : 0 < s.n := by
                  rw [hn]; exact List.length_pos_iff.2 hz
                have : ¬ w ≤ f.time - c := fun hh => k1 ⟨hh, this⟩
                show f.time - c < w
                omega
            obtain ⟨ws', cur', c', r1, r2, r3⟩ := ih f.time ⟨s.avg, s.delay + f.delay, f.time, f.time - c, s.n + 1⟩ s' (done ++ [(f.time, f.delay)]) ws (cur ++ [(f.time, f.delay)]) c hp' hft rfl
              (by rw [hd]; simp) (tiles_push ht (f.time, f.delay) hx) ha (by simp [hn]) (by simp [total, hdel]) (by simp) hr
            exact ⟨ws', cur', c', by rw [← r1]; simp, r2, r3⟩
  have h0 : 0 ≤ f0.time := hpos f0 (List.mem_cons_self ..)
  rw [run] at h
  have e1 : measure w S.init f0 = .ok { S.init with last := f0.time } := by
    unfold measure
    rw [if_pos (by decide : S.init.last < 0)]
    simp
  rw [e1, Outcome.bind_ok] at h
  obtain ⟨ws, cur, c, r1, r2, r3⟩ := main fs f0.time _ s [] [] [] f0.time (fun x hx => hpos x (List.mem_cons_of_mem _ hx)) h0 rfl rfl
    (.last _ _ (by simp)) rfl rfl rfl (by simp [S.init]) h
  exact ⟨ws, cur, c, by simpa using r1, r2, r3⟩

/-- **C77.**  The time of a frame is its decode time if it has one that is not after its presentation time, and otherwise its presentation
time; its delay is its age in whole microseconds, cut towards zero. -/
theorem frame_time_and_delay (f : F) :
    (f.dec = -1 → f.time = f.pres) ∧ (f.pres < f.dec → f.time = f.pres) ∧ (f.dec ≠ -1 → f.dec ≤ f.pres → f.time = f.dec) ∧
    (0 ≤ f.age → 1000 * f.delay ≤ f.age ∧ f.age < 1000 * f.delay + 1000) ∧
    (f.age < 0 → f.age ≤ 1000 * f.delay ∧ 1000 * f.delay < f.age + 1000) := by
  refine ⟨?_, ?_, ?_, ?_, ?_⟩
  · intro h; unfold F.time; rw [if_neg]; intro hh; exact hh.1 h
  · intro h; unfold F.time; rw [if_neg]; omega
  · intro h1 h2; unfold F.time; rw [if_pos ⟨h1, h2⟩]
  · intro h; unfold F.delay; rw [Int.tdiv_eq_ediv_of_nonneg h]; omega
  · intro h
    unfold F.delay
    have : f.age.tdiv 1000 = -((-f.age).tdiv 1000) := by rw [Int.neg_tdiv, Int.neg_neg]
    rw [this, Int.tdiv_eq_ediv_of_nonneg (by omega)]; omega

theorem total_bounds (win : List (Int × Int)) (a b : Int) (h : ∀ x ∈ win, a ≤ x.2 ∧ x.2 ≤ b) :
    a * win.length ≤ total win ∧ total win ≤ b * win.length := by
  induction win with
  | nil => simp [total]
  | cons x win ih =>
    have h1 := h x (List.mem_cons_self ..)
    have h2 := ih (fun y hy => h y (List.mem_cons_of_mem _ hy))
    simp only [total, List.map_cons, List.sum_cons, List.length_cons, Int.natCast_add, Int.mul_add] at h2 ⊢
    constructor <;> omega

/-- **C77.**  The average of delays that are not negative lies between the smallest and the largest. -/
theorem average_between (win : List (Int × Int)) (a b : Int) (hne : win ≠ []) (ha : 0 ≤ a) (h : ∀ x ∈ win, a ≤ x.2 ∧ x.2 ≤ b)
    (ht : total win < 9223372036854775808) : a ≤ average (total win) win.length ∧ average (total win) win.length ≤ b := by
  obtain ⟨h1, h2⟩ := total_bounds win a b h
  have hl : (0 : Int) < win.length := by
    have := List.length_pos_iff.2 hne; omega
  have hp : 0 ≤ total win := Int.le_trans (Int.mul_nonneg ha (by omega)) h1
  unfold average
  rw [Int.emod_eq_of_lt hp (by omega)]
  have hq : total win / win.length ≤ total win := Int.ediv_le_self _ hp
  have hq0 : 0 ≤ total win / win.length := Int.ediv_nonneg hp (by omega)
  unfold toI64
  rw [if_pos (by omega)]
  constructor
  · exact (Int.le_ediv_iff_mul_le hl).2 h1
  · have := (Int.ediv_le_iff_le_mul hl).2 (show total win < b * win.length + win.length by omega)
    exact this

/-- What a run told, as a comparison. -/
def tells (o : Outcome S) (avg : Int) : Bool :=
  match o with
  | .ok s => s.avg == avg
  | _ => false

/-- Five frames 40 ms apart with a window of 80 ms: the first is not counted, the average is that of the second. -/
theorem average_example :
    tells (run 80000 S.init [⟨0, -1, 5000000⟩, ⟨40000, -1, 3000000⟩, ⟨80000, -1, 7000000⟩, ⟨120000, -1, 9000000⟩]) 3000 = true ∧
    tells (run 80000 S.init [⟨0, -1, 5000000⟩, ⟨40000, -1, 3000000⟩, ⟨80000, -1, 7000000⟩, ⟨120000, -1, 9000000⟩,
      ⟨160000, -1, 1000000⟩]) 8000 = true := by
  constructor <;> decide +kernel

/-- **C77 (recorded exception).**  With frames from the future (a clock set back, or origin times of another host) the average is not
negative but enormous. -/
theorem future_frames_enormous :
    tells (run 80000 S.init [⟨0, -1, 0⟩, ⟨40000, -1, -1000⟩, ⟨50000, -1, -1000⟩, ⟨80000, -1, 0⟩]) 9223372036854775807 = true := by
  decide +kernel

/-- **C77 (recorded exception).**  Frames of negative time are not counted, whatever their number. -/
theorem negative_times_not_counted (w : Int) (fs : List F) (h : ∀ f ∈ fs, f.time < 0) :
    ∃ l, l < 0 ∧ run w S.init fs = .ok { S.init with last := l } := by
  have main : ∀ (fs : List F) (l : Int), l < 0 → (∀ f ∈ fs, f.time < 0) →
      ∃ l', l' < 0 ∧ run w { S.init with last := l } fs = .ok { S.init with last := l' } := by
    intro fs
    induction fs with
    | nil => intro l hl _; exact ⟨l, hl, rfl⟩
    | cons f fs ih =>
      intro l hl h
      obtain ⟨l', h1, h2⟩ := ih f.time (h f (List.mem_cons_self ..)) (fun x hx => h x (List.mem_cons_of_mem _ hx))
      refine ⟨l', h1, ?_⟩
      rw [run]
      have e1 : measure w { S.init with last := l } f = .ok { S.init with last := f.time } := by
        simp only [measure, if_pos hl, if_true]
      rw [e1, Outcome.bind_ok]; exact h2
  exact main fs (-1) (by decide) h

/-! ## What a client is told -/

open Lms.Control in
/-- **C77.**  A path's report tells the average delay of its destination's reader and the blocks lost at that reader and at the readers of
all intermediate filters together, as far as they are `int`s. -/
theorem path_report_delay_and_loss (s : Pipeline.S) (env : Env) (id : Int) (p : Pipeline.Path)
    (hf : ∀ f, f = p.dst ∨ f ∈ p.mids → (Pipeline.lookup s.filters f).isSome = true)
    (hd : Fits (env.delay p.dst p.dstR)) (hl : (env.lost p.dst p.dstR + (p.mids.map fun m => env.lost m 1).sum) < 2147483648) :
    (member "avgDelay" (pathReport s env id p)).bind numberOf = some (env.delay p.dst p.dstR) ∧
    (member "lostBlocs" (pathReport s env id p)).bind numberOf =
      some ((env.lost p.dst p.dstR + (p.mids.map fun m => env.lost m 1).sum : Nat) : Int) := by
  have hm : (p.mids.map fun m => if (Pipeline.lookup s.filters m).isSome then env.lost m DEFAULT_ID else 0) =
      p.mids.map fun m => env.lost m 1 := by
    refine List.map_congr_left ?_
    intro m hmm
    rw [if_pos (hf m (Or.inr hmm))]; rfl
  have a1 : ("avgDelay".toList == "id".toList) = false := by decide +kernel
  have a2 : ("avgDelay".toList == "originFilter".toList) = false := by decide +kernel
  have a3 : ("avgDelay".toList == "destinationFilter".toList) = false := by decide +kernel
  have a4 : ("avgDelay".toList == "originWriter".toList) = false := by decide +kernel
  have a5 : ("avgDelay".toList == "destinationReader".toList) = false := by decide +kernel
  have b1 : ("lostBlocs".toList == "id".toList) = false := by decide +kernel
  have b2 : ("lostBlocs".toList == "originFilter".toList) = false := by decide +kernel
  have b3 : ("lostBlocs".toList == "destinationFilter".toList) = false := by decide +kernel
  have b4 : ("lostBlocs".toList == "originWriter".toList) = false := by decide +kernel
  have b5 : ("lostBlocs".toList == "destinationReader".toList) = false := by decide +kernel
  have b6 : ("lostBlocs".toList == "avgDelay".toList) = false := by decide +kernel
  have fit : ∀ z, Fits z → toI32 z = z := by
    intro z hz
    obtain ⟨h1, h2⟩ := hz
    unfold toI32
    split <;> omega
  have hL : toI32 (((env.lost p.dst p.dstR + (p.mids.map fun m => env.lost m 1).sum) % 18446744073709551616 : Nat) : Int) =
      ((env.lost p.dst p.dstR + (p.mids.map fun m => env.lost m 1).sum : Nat) : Int) := by
    rw [Nat.mod_eq_of_lt (by omega)]
    exact fit _ ⟨by omega, by omega⟩
  have hLf : Fits ((env.lost p.dst p.dstR + (p.mids.map fun m => env.lost m 1).sum : Nat) : Int) := ⟨by omega, by omega⟩
  unfold pathReport
  rw [if_pos (hf p.dst (Or.inl rfl)), hm]
  simp only [member, List.cons_append, List.nil_append, List.lookup, BEq.rfl, a1, a2, a3, a4, a5, b1, b2, b3, b4, b5, b6, Option.bind,
    fit _ hd, number_intNode _ hd]
  refine ⟨trivial, ?_⟩
  have := number_intNode _ hLf
  rw [← hL] at this ⊢
  exact this

open Lms.Control in
/-- **C77 (recorded exception).**  An average above 35 minutes is told as another number, and so is the enormous one: -1. -/
theorem told_cut : toI32 2147483648 = -2147483648 ∧ toI32 9223372036854775807 = -1 ∧ toI32 4294967301 = 5 := by
  decide

end Lms.ReaderDelay
