import Verif.SharedReader.Lemmas

/-! C08: filters sharing one reader. -/

namespace Lms.SharedReader
open Lms.FrameQueue

variable {α : Type}

/-- **C08.** Every safe history on a shared reader behaves like the specification. -/
theorem shared_reader_refines (maxFrames : Nat) (hm : 2 ≤ maxFrames) (d : Nat → α) (f : Nat)
    (ops : List (Op α))
    (hs : SafeRun Spec.step Safe (Spec.init (FrameQueue.Spec.init maxFrames d) f) ops) :
    ∃ s', runOps Rd.step (Rd.create (Ring.create maxFrames d) f) ops =
      .ok (s', (runSpec Spec.step (Spec.init (FrameQueue.Spec.init maxFrames d) f) ops).2) := by
  obtain ⟨s', h, _⟩ := runOps_refines_safe Rd.step Spec.step Safe Rel step_rel ops _ _ hs
    (create_rel maxFrames hm d f)
  exact ⟨s', h⟩

/-! ### What is observed of one filter -/

/-- Built from the calls and their results only, for one filter.  `sent`: frames accepted by unforced
writes; `adv`: how often the queue advanced; `busy`: someone was told a new frame since the last
advance; `member`: the filter shares the reader; `start`: how many frames had been announced when it
joined; `told`: the frames announced to it as new since; `rel`: how often it released since. -/
structure Obs (α : Type) where
  sent : List α
  adv : Nat
  busy : Bool
  member : Bool
  start : Nat
  told : List α
  rel : Nat

def Obs.step (f : Nat) (o : Obs α) : Op α → Out α → Obs α
  | .put x, .wrote true => { o with sent := o.sent ++ [x] }
  | .get g, .frame (some (x, true)) =>
    { o with busy := true, told := if g = f then o.told ++ [x] else o.told }
  | .remove g, .advanced b =>
    { o with adv := if b then o.adv + 1 else o.adv, busy := if b then false else o.busy
             rel := if g = f then o.rel + 1 else o.rel }
  | .join g, .bool true =>
    if g = f then
      { o with member := true, start := o.adv + (if o.busy then 1 else 0), told := [], rel := 0 }
    else o
  | .leave g, .bool true => if g = f then { o with member := false } else o
  | _, _ => o

def Obs.run (f : Nat) : Obs α → List (Op α) → List (Out α) → Obs α
  | o, op :: ops, out :: outs => Obs.run f (o.step f op out) ops outs
  | o, _, _ => o

/-- At creation the reader has one filter `f0`. -/
def Obs.init (f0 f : Nat) : Obs α :=
  { sent := [], adv := 0, busy := false, member := f == f0, start := 0, told := [], rel := 0 }

/-! ### Invariant -/

/-- The frame announced to `f` and not yet released by everyone. -/
def cur (t : Spec α) (f : Nat) : List α := if t.active = true ∧ f ∉ t.todo then t.q.q.take 1 else []

structure Inv (f : Nat) (t : Spec α) (popped : List α) (o : Obs α) : Prop where
  adv : o.adv = popped.length
  busy : o.busy = t.active
  member : o.member = decide (f ∈ t.members)
  told : f ∈ t.members → o.told = (popped ++ cur t f).drop o.start
  rel : f ∈ t.members → o.rel + o.start =
    popped.length + if t.active = true ∧ f ∉ t.todo ∧ f ∉ t.hold then 1 else 0

theorem cur_congr {t t' : Spec α} {f : Nat} (ha : t'.active = t.active) (ht : t'.todo = t.todo)
    (hq : t.active = true → t'.q.q.take 1 = t.q.q.take 1) : cur t' f = cur t f := by
  unfold cur
  rw [ha, ht]
  split
  · rename_i h; exact hq h.1
  · rfl

/-- Frames released by everyone so far. -/
def pop (t : Spec α) (popped : List α) : Op α → List α
  | .remove f => if (t.remove f).2 then popped ++ t.q.q.take 1 else popped
  | _ => popped

theorem inv_step {s : Rd α} {t : Spec α} (h : Rel s t) {f : Nat} {popped : List α} {o : Obs α}
    (hi : Inv f t popped o) (op : Op α) (hsafe : Safe t op) :
    Inv f (t.step op).1 (pop t popped op) (o.step f op (t.step op).2) := by
  obtain ⟨i1, i2, i3, i4, i5⟩ := hi
  cases op with
  | put x =>
    simp only [Spec.step, pop]
    split
    · refine ⟨i1, i2, i3, ?_, i5⟩
      intro hf
      refine (i4 hf).trans (congrArg (fun l => (popped ++ l).drop o.start) (cur_congr (by rfl) (by rfl) ?_).symm)
      · intro ha
        rcases hq : t.q.q with _ | ⟨y, q⟩
        · exact absurd hq (h.held ha).2
        · simp
    · exact ⟨i1, i2, i3, i4, i5⟩
  | forcePut x =>
    simp only [Spec.step, pop]
    refine ⟨i1, i2, i3, ?_, i5⟩
    intro hf
    refine (i4 hf).trans (congrArg (fun l => (popped ++ l).drop o.start) (cur_congr (by rfl) (by rfl) ?_).symm)
    · intro ha
      have hne := (h.held ha).2
      have h2 : 2 ≤ t.q.cap := hsafe
      unfold FrameQueue.Spec.makeRoom
      split
      · rcases hq : t.q.q with _ | ⟨y, q⟩
        · exact absurd hq hne
        · simp [hq]
      · rename_i hlt
        rcases hq : t.q.q with _ | ⟨y, _ | ⟨z, q⟩⟩
        · exact absurd hq hne
        · rw [hq] at hlt; simp at hlt; omega
        · simp [hq]
  | get g =>
    simp only [Spec.step, pop]
    unfold Spec.get
    by_cases hg : g ∈ t.members
    · rw [if_pos hg]
      rcases hq : t.q.q with _ | ⟨x, q⟩
      · exact ⟨i1, i2, i3, i4, i5⟩
      · simp only
        by_cases ha : t.active = true
        · have hsub := h.sub ha
          simp only [ha, if_true]
          by_cases hgt : g ∈ t.todo
          · simp only [hgt, if_true, Obs.step]
            refine ⟨i1, rfl, i3, ?_, ?_⟩
            · intro hf
              have hold := i4 hf
              have hrel := i5 hf
              simp only
              by_cases hgf : g = f
              · subst hgf
                have e1 : cur t g = [] := by unfold cur; simp [hgt]
                rw [e1, List.append_nil] at hold
                rw [if_neg (by simp [hgt])] at hrel
                unfold cur
                simp only [hq, ha]
                simp only [if_true, hold]
                rw [List.drop_append_of_le_length (by omega)]
                simp
              · simp only [if_neg hgf, hold]
                unfold cur
                have : f ≠ g := fun e => hgf e.symm
                simp [hq, this, ha]
            · intro hf
              have hrel := i5 hf
              simp only
              by_cases hgf : g = f
              · subst hgf
                simpa [hgt] using hrel
              · have : f ≠ g := fun e => hgf e.symm
                rw [hrel]
                simp [this, ha]
          · simp only [hgt, if_false]
            have e : ({ t with active := true, todo := t.todo, hold := t.hold } : Spec α) = t := by
              rw [← ha]
            rw [e]
            exact ⟨i1, i2, i3, i4, i5⟩
        · simp only [ha, Bool.false_eq_true, if_false, hg, if_true, Obs.step]
          refine ⟨i1, rfl, i3, ?_, ?_⟩
          · intro hf
            have hf : f ∈ t.members := hf
            have hold := i4 hf
            have hrel := i5 hf
            have e1 : cur t f = [] := by unfold cur; simp [ha]
            rw [e1, List.append_nil] at hold
            rw [if_neg (by simp [ha])] at hrel
            simp only
            by_cases hgf : g = f
            · subst hgf
              unfold cur
              simp only [hq, if_true, hold]
              rw [if_pos (by simp), List.drop_append_of_le_length (by omega)]
              rfl
            · simp only [if_neg hgf, hold]
              unfold cur
              have : f ≠ g := fun e => hgf e.symm
              simp [hq, this, hf]
          · intro hf
            have hf : f ∈ t.members := hf
            have hrel := i5 hf
            rw [if_neg (by simp [ha])] at hrel
            simp only
            rw [hrel]
            by_cases hgf : f = g
            · simp [hgf]
            · simp [hgf, hf]
    · rw [if_neg hg]; exact ⟨i1, i2, i3, i4, i5⟩
  | remove g =>
    obtain ⟨ha, hgh⟩ := hsafe
    have hsub := h.sub ha
    simp only [Spec.step, pop, Obs.step]
    unfold Spec.remove
    by_cases hc : t.todo = [] ∧ t.hold.filter (· ≠ g) = []
    · simp only [hc.1, hc.2, and_self, if_true]
      rcases hq : t.q.q with _ | ⟨x, q⟩
      · exact absurd hq (h.held ha).2
      · simp only [if_true]
        refine ⟨by simp [i1], rfl, i3, ?_, ?_⟩
        · intro hf
          have hf : f ∈ t.members := hf
          rw [i4 hf]
          unfold cur
          simp [ha, hc.1, hq]
        · intro hf
          have hf : f ∈ t.members := hf
          have hrel := i5 hf
          simp only
          rw [hc.1] at hrel
          have hmem : f ∈ t.hold ↔ f = g := by
            constructor
            · intro hh
              by_cases he : f = g
              · exact he
              · have : f ∈ t.hold.filter (· ≠ g) := List.mem_filter.2 ⟨hh, by simpa using he⟩
                rw [hc.2] at this; simp at this
            · rintro rfl; exact hgh
          by_cases hgf : g = f
          · subst hgf
            simp [hgh] at hrel
            simp; omega
          · have h2 : f ∉ t.hold := fun hh => hgf (hmem.1 hh).symm
            simp [h2, ha] at hrel
            simp [hgf]; omega
    · rw [if_neg hc]
      simp only [Bool.false_eq_true, if_false]
      refine ⟨i1, i2, i3, ?_, ?_⟩
      · intro hf; exact i4 hf
      · intro hf
        have hf : f ∈ t.members := hf
        have hrel := i5 hf
        simp only
        by_cases hgf : g = f
        · subst hgf
          have hnt : g ∉ t.todo := fun h2 => hsub.2.2.1 g h2 hgh
          simp [hgh] at hrel
          simp [hnt, ha]; omega
        · have : f ≠ g := fun e => hgf e.symm
          simp [hgf, this]
          simpa using hrel
  | join g =>
    simp only [Spec.step, pop]
    by_cases hg : g ∈ t.members
    · rw [if_pos hg]
      exact ⟨i1, i2, i3, i4, i5⟩
    · rw [if_neg hg]
      simp only [Obs.step]
      by_cases hgf : g = f
      · subst hgf
        rw [if_pos rfl]
        refine ⟨i1, i2, by simp, ?_, ?_⟩
        · intro _
          unfold cur
          simp only
          by_cases ha : t.active = true
          · rw [i2, ha, i1]
            symm
            rw [List.drop_eq_nil_iff]
            have : (t.q.q.take 1).length ≤ 1 := List.length_take_le ..
            split <;> simp <;> omega
          · rw [i2, i1]; simp [ha]
        · intro _
          simp only
          by_cases ha : t.active = true
          · have hs := h.sub ha
            have h1 : g ∉ t.todo := fun h2 => hg (hs.1 g h2)
            have h2 : g ∉ t.hold := fun h2 => hg (hs.2.1 g h2)
            rw [i2, i1]; simp [ha, h1, h2]
          · rw [i2, i1]; simp [ha]
      · rw [if_neg hgf]
        have hne : f ≠ g := fun e => hgf e.symm
        refine ⟨i1, i2, ?_, ?_, ?_⟩
        · rw [i3]; simp [hne]
        · intro hf; exact i4 (by simpa [hne] using hf)
        · intro hf; exact i5 (by simpa [hne] using hf)
  | leave g =>
    simp only [Spec.step, pop]
    by_cases hg : g ∈ t.members
    · rw [if_pos hg]
      simp only [Obs.step]
      by_cases hgf : g = f
      · subst hgf
        rw [if_pos rfl]
        refine ⟨i1, i2, by simp, ?_, ?_⟩ <;> (intro hf; simp at hf)
      · rw [if_neg hgf]
        have hne : f ≠ g := fun e => hgf e.symm
        refine ⟨i1, i2, ?_, ?_, ?_⟩
        · rw [i3]; simp [hne]
        · intro hf
          rw [i4 (List.mem_filter.1 hf).1]
          unfold cur; simp [hne]
        · intro hf
          rw [i5 (List.mem_filter.1 hf).1]
          simp [hne]
    · rw [if_neg hg]; exact ⟨i1, i2, i3, i4, i5⟩

def popRun : Spec α → List α → List (Op α) → List α
  | _, p, [] => p
  | t, p, op :: ops => popRun (t.step op).1 (pop t p op) ops

theorem inv_run (f : Nat) (ops : List (Op α)) : ∀ (s : Rd α) (t : Spec α) (popped : List α) (o : Obs α),
    Rel s t → SafeRun Spec.step Safe t ops → Inv f t popped o →
    Inv f (runSpec Spec.step t ops).1 (popRun t popped ops) (o.run f ops (runSpec Spec.step t ops).2) := by
  induction ops with
  | nil => intro s t popped o _ _ hi; exact hi
  | cons op ops ih =>
    intro s t popped o h hs hi
    obtain ⟨s', _, h2⟩ := step_rel s t op hs.1 h
    exact ih s' _ _ _ h2 hs.2 (inv_step h hi op hs.1)

def isForced : Op α → Bool
  | .forcePut _ => true
  | _ => false

theorem sent_run (f : Nat) (ops : List (Op α)) : ∀ (s : Rd α) (t : Spec α) (popped : List α) (o : Obs α),
    Rel s t → SafeRun Spec.step Safe t ops → (∀ op ∈ ops, isForced op = false) → o.sent = popped ++ t.q.q →
    (o.run f ops (runSpec Spec.step t ops).2).sent =
      popRun t popped ops ++ (runSpec Spec.step t ops).1.q.q := by
  induction ops with
  | nil => intro s t popped o _ _ _ hi; exact hi
  | cons op ops ih =>
    intro s t popped o h hs hu hi
    obtain ⟨s', _, h2⟩ := step_rel s t op hs.1 h
    refine ih s' _ _ _ h2 hs.2 (fun x hx => hu x (List.mem_cons_of_mem _ hx)) ?_
    show (o.step f op (t.step op).2).sent = pop t popped op ++ (t.step op).1.q.q
    have hop := hu op (by simp)
    cases op with
    | put x => simp only [Spec.step, pop]; split <;> simp [Obs.step, hi]
    | forcePut x => simp [isForced] at hop
    | get g =>
      simp only [Spec.step, pop]
      unfold Spec.get
      by_cases hg : g ∈ t.members
      · rw [if_pos hg]
        rcases hq : t.q.q with _ | ⟨x, q⟩
        · simp only [Obs.step]; rw [hi, hq]
        · simp only
          by_cases ht : g ∈ (if t.active = true then t.todo else t.members)
          · simp only [ht, if_true, Obs.step]; rw [hi, hq]
          · simp only [ht, if_false, Obs.step]; rw [hi, hq]
      · rw [if_neg hg]; exact hi
    | remove g =>
      simp only [Spec.step, pop, Obs.step]
      rw [hi]
      unfold Spec.remove
      by_cases hc : t.todo = [] ∧ t.hold.filter (· ≠ g) = []
      · simp only [hc.1, hc.2, and_self, if_true]
        rcases hq : t.q.q with _ | ⟨x, q⟩
        · simp [hq]
        · simp
      · rw [if_neg hc]; simp
    | join g =>
      simp only [Spec.step, pop]
      (repeat' split) <;> simp only [Obs.step] <;> (repeat' split) <;> exact hi
    | leave g =>
      simp only [Spec.step, pop]
      (repeat' split) <;> simp only [Obs.step] <;> (repeat' split) <;> exact hi

/-- **C08.** Every sharing filter sees every frame exactly once, in order, and the queue advances
exactly when all of them have released.  For every safe history there is a stream of frames (the
frames committed, when no write was forced) such that every filter sharing the reader at the end
* was told as new exactly the frames of the stream from the moment it joined, without omission or
  repetition (`start`, `start + 1`, …);
* is at most one frame ahead of the queue, and never behind it;
and the number of advances is the least number of frames released by a sharing filter. -/
theorem every_filter_sees_every_frame_once (maxFrames : Nat) (hm : 2 ≤ maxFrames) (d : Nat → α)
    (f0 : Nat) (ops : List (Op α))
    (hs : SafeRun Spec.step Safe (Spec.init (FrameQueue.Spec.init maxFrames d) f0) ops) :
    ∃ s' outs stream, runOps Rd.step (Rd.create (Ring.create maxFrames d) f0) ops = .ok (s', outs) ∧
      (∀ f, (∀ op ∈ ops, isForced op = false) → ((Obs.init f0 f).run f ops outs).sent = stream) ∧
      (∀ f, let o := (Obs.init f0 f).run f ops outs
        o.member = true →
          o.told = (stream.drop o.start).take o.told.length ∧
          o.adv ≤ o.start + o.rel ∧ o.rel ≤ o.told.length ∧ o.start + o.told.length ≤ o.adv + 1) ∧
      (∃ f, let o := (Obs.init f0 f).run f ops outs
        o.member = true ∧ o.start + o.rel = o.adv) := by
  have hr0 := create_rel maxFrames hm d f0
  obtain ⟨s', h1, h2⟩ := runOps_refines_safe Rd.step Spec.step Safe Rel step_rel ops _ _ hs hr0
  have hinv : ∀ f, Inv f _ _ _ := fun f => inv_run f ops _ _ [] (Obs.init f0 f) hr0 hs
    ⟨rfl, rfl, by by_cases hx : f = f0 <;> simp [Obs.init, Spec.init, hx], by
      intro hf; simp [Spec.init] at hf; subst hf; simp [Obs.init, cur, Spec.init], by
      intro hf; simp [Obs.init, Spec.init]⟩
  have hmem0 : ∀ (ops : List (Op α)) (t : Spec α), SafeRun Spec.step Safe t ops → t.members ≠ [] →
      (runSpec Spec.step t ops).1.members ≠ [] := by
    intro ops
    induction ops with
    | nil => intro t _ h; exact h
    | cons op ops ih =>
      intro t hs hne
      refine ih _ hs.2 ?_
      cases op with
      | put x => simp only [Spec.step]; split <;> exact hne
      | forcePut x => exact hne
      | get g =>
        simp only [Spec.step]; unfold Spec.get; (repeat' (first | split | dsimp only)) <;> exact hne
      | remove g => simp only [Spec.step]; unfold Spec.remove; (repeat' (first | split | dsimp only)) <;> exact hne
      | join g => simp only [Spec.step]; split <;> simp [hne]
      | leave g =>
        simp only [Spec.step]
        split
        · rename_i hg
          obtain ⟨k, hk, hkg⟩ := hs.1.1 hg
          intro h0
          have h0 : t.members.filter (· ≠ g) = [] := h0
          have : k ∈ t.members.filter (· ≠ g) := List.mem_filter.2 ⟨hk, by simpa using hkg⟩
          rw [h0] at this; simp at this
        · exact hne
  have hne := hmem0 ops _ hs (by simp [Spec.init])
  generalize hT : (runSpec Spec.step (Spec.init (FrameQueue.Spec.init maxFrames d) f0) ops).1 = T at *
  generalize hP : popRun (Spec.init (FrameQueue.Spec.init maxFrames d) f0) [] ops = P at *
  refine ⟨s', _, P ++ T.q.q, h1, ?_, ?_, ?_⟩
  · intro f hu
    have := sent_run f ops _ _ [] (Obs.init f0 f) hr0 hs hu rfl
    rw [hT, hP] at this
    exact this
  · intro f o hmem
    have hi : Inv f T P o := hinv f
    have hf : f ∈ T.members := by
      have := hi.member; rw [hmem] at this; simpa using this.symm
    have ht := hi.told hf
    have hrel := hi.rel hf
    have hadv := hi.adv
    have hcl : (cur T f).length ≤ 1 := by
      unfold cur; split
      · exact List.length_take_le ..
      · simp
    have hlen : o.told.length = P.length + (cur T f).length - o.start := by rw [ht]; simp
    have hpre : cur T f <+: T.q.q := by
      unfold cur; split
      · exact List.take_prefix ..
      · exact List.nil_prefix
    refine ⟨?_, ?_, ?_, ?_⟩
    · obtain ⟨rest, hrest⟩ := hpre
      rw [← hrest, ← List.append_assoc, List.drop_append, ← ht]
      simp
    · omega
    · rw [hlen]
      split at hrel
      · rename_i hc
        have : (cur T f).length = 1 := by
          unfold cur
          rw [if_pos ⟨hc.1, hc.2.1⟩]
          have hq := (h2.held hc.1).2
          rcases hq' : T.q.q with _ | ⟨x, q⟩
          · exact absurd hq' hq
          · simp
        omega
      · omega
    · rw [hlen]
      split at hrel <;> omega
  · by_cases ha : T.active = true
    · obtain ⟨g, hg⟩ : ∃ g, g ∈ T.todo ∨ g ∈ T.hold := by
        rcases (h2.sub ha).2.2.2 with hne | hne
        · obtain ⟨g, hg⟩ := List.exists_mem_of_ne_nil _ hne; exact ⟨g, Or.inl hg⟩
        · obtain ⟨g, hg⟩ := List.exists_mem_of_ne_nil _ hne; exact ⟨g, Or.inr hg⟩
      have hgm : g ∈ T.members := by
        rcases hg with hg | hg
        · exact (h2.sub ha).1 g hg
        · exact (h2.sub ha).2.1 g hg
      refine ⟨g, ?_⟩
      intro o
      have hi : Inv g T P o := hinv g
      have hrel := hi.rel hgm
      rw [if_neg (by rintro ⟨_, h3, h4⟩; rcases hg with hg | hg <;> contradiction)] at hrel
      refine ⟨?_, ?_⟩
      · rw [hi.member]; simpa using hgm
      · have := hi.adv; omega
    · obtain ⟨g, hgm⟩ := List.exists_mem_of_ne_nil _ hne
      refine ⟨g, ?_⟩
      intro o
      have hi : Inv g T P o := hinv g
      have hrel := hi.rel hgm
      rw [if_neg (by simp [ha])] at hrel
      refine ⟨?_, ?_⟩
      · rw [hi.member]; simpa using hgm
      · have := hi.adv; omega

/-! ### Findings -/

def isRemove : Op α → Bool
  | .remove _ => true
  | _ => false

/-- Held frame, nobody left to release it. -/
structure Stalled (s : Rd α) : Prop where
  ring : ∃ t, FrameQueue.Rel s.ring t
  frame : ∃ i, s.frame = some i
  ready : s.ready = false
  flags : ∀ e ∈ s.filters, e.2.1 = false ∧ e.2.2 = false

theorem stalled_step {s : Rd α} (h : Stalled s) (op : Op α) (hop : isRemove op = false) :
    ∃ s' o, s.step op = .ok (s', o) ∧ Stalled s' ∧ ∀ x, o ≠ .frame (some (x, true)) := by
  obtain ⟨⟨t, h1⟩, ⟨i, h2⟩, h3, h4⟩ := h
  cases op with
  | put x =>
    obtain ⟨r', hr, hr2⟩ := FrameQueue.step_rel _ _ (.put x) h1
    simp only [Rd.step, hr, Outcome.bind_ok]
    exact ⟨_, _, rfl, ⟨⟨_, hr2⟩, ⟨i, h2⟩, h3, h4⟩, by simp⟩
  | forcePut x =>
    obtain ⟨r', hr, hr2⟩ := FrameQueue.step_rel _ _ (.forcePut x) h1
    simp only [Rd.step, hr, Outcome.bind_ok]
    exact ⟨_, _, rfl, ⟨⟨_, hr2⟩, ⟨i, h2⟩, h3, h4⟩, by simp⟩
  | get f =>
    simp only [Rd.step, Rd.getFrame]
    split
    · exact ⟨_, _, rfl, ⟨⟨t, h1⟩, ⟨i, h2⟩, h3, h4⟩, by simp⟩
    split
    · exact ⟨_, _, rfl, ⟨⟨t, h1⟩, ⟨i, h2⟩, h3, h4⟩, by simp⟩
    rw [h2]
    simp only [Option.some_or, h3, Bool.false_eq_true, if_false, Outcome.bind_ok]
    have hu : untold s.filters f = false := by
      unfold untold
      rw [List.any_eq_false]
      intro e he
      simp [(h4 e he).1]
    refine ⟨_, _, rfl, ⟨⟨t, h1⟩, ⟨i, rfl⟩, rfl, ?_⟩, by simp [hu]⟩
    intro e he
    simp only [setTold, List.mem_map] at he
    obtain ⟨e0, he0, rfl⟩ := he
    have := h4 e0 he0
    split <;> simp [this]
  | remove f => simp [isRemove] at hop
  | join f =>
    simp only [Rd.step, Rd.addReader]
    split
    · refine ⟨_, _, rfl, ⟨⟨t, h1⟩, ⟨i, h2⟩, h3, ?_⟩, by simp⟩
      intro e he
      simp only [List.mem_append, List.mem_singleton] at he
      rcases he with he | rfl
      · exact h4 e he
      · simp
    · exact ⟨_, _, rfl, ⟨⟨t, h1⟩, ⟨i, h2⟩, h3, h4⟩, by simp⟩
  | leave f =>
    simp only [Rd.step, Rd.disconnect]
    have hf : ∀ e ∈ s.filters.filter (fun e => e.1 != f), e.2.1 = false ∧ e.2.2 = false :=
      fun e he => h4 e (List.mem_filter.1 he).1
    split
    · exact ⟨_, _, rfl, ⟨⟨t, h1⟩, ⟨i, h2⟩, h3, h4⟩, by simp⟩
    · split
      · exact ⟨_, _, rfl, ⟨⟨t, h1⟩, ⟨i, h2⟩, h3, hf⟩, by simp⟩
      · exact ⟨_, _, rfl, ⟨⟨t, h1⟩, ⟨i, h2⟩, h3, hf⟩, by simp⟩

theorem stalled_run (ops : List (Op α)) : ∀ (s : Rd α), Stalled s → (∀ op ∈ ops, isRemove op = false) →
    ∃ s' outs, runOps Rd.step s ops = .ok (s', outs) ∧ ∀ x, .frame (some (x, true)) ∉ outs := by
  induction ops with
  | nil => intro s _ _; exact ⟨s, [], rfl, by simp⟩
  | cons op ops ih =>
    intro s h hu
    obtain ⟨s1, o, h1, h2, h3⟩ := stalled_step h op (hu op (by simp))
    obtain ⟨s2, os, h4, h5⟩ := ih s1 h2 (fun x hx => hu x (List.mem_cons_of_mem _ hx))
    refine ⟨s2, o :: os, by simp [runOps, h1, h4], ?_⟩
    intro x hx
    rcases List.mem_cons.1 hx with hx | hx
    · exact h3 x hx.symm
    · exact h5 x hx

/-- **C08, recorded exception.** If a filter stops sharing while it is the only one the current frame
still waits for, nothing releases that frame: whatever is written afterwards and whoever asks, joins
or leaves, no filter is ever told of a new frame again.  (Filters only release frames they were told
of, src/Filter.cpp:219-238, so `remove` does not occur after that.) -/
theorem leave_can_stall_reader (maxFrames : Nat) (hm : 2 ≤ maxFrames) (d : Nat → α)
    (f0 : Nat) (ops : List (Op α))
    (hs : SafeRun Spec.step Safe (Spec.init (FrameQueue.Spec.init maxFrames d) f0) ops)
    (t : Spec α) (ht : t = (runSpec Spec.step (Spec.init (FrameQueue.Spec.init maxFrames d) f0) ops).1)
    (ha : t.active = true) (f : Nat) (honly : ∀ g, g ∈ t.todo ∨ g ∈ t.hold → g = f)
    (later : List (Op α)) (hl : ∀ op ∈ later, isRemove op = false) :
    ∃ s' outs outs', runOps Rd.step (Rd.create (Ring.create maxFrames d) f0) (ops ++ .leave f :: later) =
        .ok (s', outs ++ outs') ∧ outs.length = ops.length ∧
      ∀ x, .frame (some (x, true)) ∉ outs' := by
  obtain ⟨s1, h1, h2⟩ := runOps_refines_safe Rd.step Spec.step Safe Rel step_rel ops _ _ hs
    (create_rel maxFrames hm d f0)
  rw [← ht] at h2
  have hlen : ∀ (l : List (Op α)) (t : Spec α), (runSpec Spec.step t l).2.length = l.length := by
    intro l
    induction l with
    | nil => intro t; rfl
    | cons a l ih => intro t; simp [runSpec, ih]
  have hst : ∃ s2 o, s1.step (.leave f) = .ok (s2, o) ∧ Stalled s2 ∧ ∀ x, o ≠ .frame (some (x, true)) := by
    have hflags : ∀ e ∈ s1.filters.filter (fun e => e.1 != f), e.2.1 = false ∧ e.2.2 = false := by
      intro e he
      obtain ⟨he1, he2⟩ := List.mem_filter.1 he
      have hne : e.1 ≠ f := by simpa using he2
      have hfl := h2.flags ha e he1
      have hn : ¬ (e.1 ∈ t.todo ∨ e.1 ∈ t.hold) := fun h => hne (honly _ h)
      constructor
      · cases hb : e.2.1
        · rfl
        · exact absurd (Or.inl (hfl.1.1 hb)) hn
      · cases hb : e.2.2
        · rfl
        · exact absurd (hfl.2.1 hb) hn
    have hfm : f ∈ t.members := by
      rcases (h2.sub ha).2.2.2 with hne | hne
      · obtain ⟨g, hg⟩ := List.exists_mem_of_ne_nil _ hne
        rw [← honly g (Or.inl hg)]; exact (h2.sub ha).1 g hg
      · obtain ⟨g, hg⟩ := List.exists_mem_of_ne_nil _ hne
        rw [← honly g (Or.inr hg)]; exact (h2.sub ha).2.1 g hg
    have hr : s1.ready = false := by rw [h2.ready, ha]; rfl
    have hh := has_iff s1 t h2.mem f
    simp only [Rd.step, Rd.disconnect, hh, hfm, decide_true, Bool.not_true, Bool.false_eq_true, if_false]
    split
    · exact ⟨_, _, rfl, ⟨⟨_, h2.ring⟩, ⟨_, (h2.held ha).1⟩, hr, hflags⟩, by simp⟩
    · exact ⟨_, _, rfl, ⟨⟨_, h2.ring⟩, ⟨_, (h2.held ha).1⟩, hr, hflags⟩, by simp⟩
  obtain ⟨s2, o, h3, h4, h5⟩ := hst
  obtain ⟨s3, os, h6, h7⟩ := stalled_run later s2 h4 hl
  refine ⟨s3, (runSpec Spec.step (Spec.init (FrameQueue.Spec.init maxFrames d) f0) ops).2, o :: os, ?_,
    hlen ops _, ?_⟩
  · rw [runOps_append, h1]
    simp [runOps, h3, h6]
  · intro x hx
    rcases List.mem_cons.1 hx with hx | hx
    · exact h5 x hx.symm
    · exact h7 x hx

/-- **C08, recorded exception.** Releasing when no frame is held and none is waited for dereferences a
null frame in the delay statistics. -/
theorem release_without_frame_is_ub (maxFrames : Nat) (d : Nat → α) (f0 f : Nat) :
    (Rd.create (Ring.create maxFrames d) f0).step (.remove f) = .ub := by
  simp [Rd.step, Rd.removeFrame, Rd.create, setReleased, allRead]

/-! ### Examples -/

def demo : List (Op Nat) :=
  [.join 2, .put 10, .put 11, .get 1, .get 2, .get 1, .remove 1, .get 1, .join 3, .get 3, .remove 2,
   .get 3, .get 2, .remove 3, .get 1, .remove 2, .remove 1, .get 3]

/-- A history meeting the hypotheses of `every_filter_sees_every_frame_once`, with a filter joining
while a frame is held. -/
example : (runOps Rd.step (Rd.create (Ring.create 4 (fun _ => 0)) 1) demo).map (·.2) =
    .ok [.bool true, .wrote true, .wrote true, .frame (some (10, true)), .frame (some (10, true)),
      .frame (some (10, false)), .advanced false, .frame (some (10, false)), .bool true,
      .frame (some (10, false)), .advanced true, .frame (some (11, true)), .frame (some (11, true)),
      .advanced false, .frame (some (11, true)), .advanced false, .advanced true,
      .frame (some (11, false))] := by decide

instance (t : Spec Nat) (op : Op Nat) : Decidable (Safe t op) := by
  cases op <;> unfold Safe
  case leave f =>
    refine @instDecidableAnd _ _ inferInstance ?_
    refine decidable_of_iff (t.active = true → f ∈ t.members → (∃ g ∈ t.todo ++ t.hold, g ≠ f)) ?_
    constructor
    · intro h a b; obtain ⟨g, hg, hn⟩ := h a b; exact ⟨g, hn, by simpa using hg⟩
    · intro h a b; obtain ⟨g, hn, hg⟩ := h a b; exact ⟨g, by simpa using hg, hn⟩
  all_goals infer_instance

instance safeDec : (t : Spec Nat) → (ops : List (Op Nat)) → Decidable (SafeRun Spec.step Safe t ops)
  | _, [] => .isTrue trivial
  | t, op :: ops => @instDecidableAnd _ _ inferInstance (safeDec (t.step op).1 ops)

example : SafeRun Spec.step Safe (Spec.init (FrameQueue.Spec.init 4 (fun _ => 0)) 1) demo := by decide

/-- A stall: filter 2 leaves while it holds the frame filter 1 has already released. -/
example : (runOps Rd.step (Rd.create (Ring.create 4 (fun _ => 0)) 1)
    [.join 2, .put 10, .put 11, .get 1, .get 2, .remove 1, .leave 2, .get 1, .get 1]).map (·.2) =
    .ok [.bool true, .wrote true, .wrote true, .frame (some (10, true)), .frame (some (10, true)),
      .advanced false, .bool true, .frame (some (10, false)), .frame (some (10, false))] := by decide

/-- **C08.** The answer of a release tells whether the queue moved on: only when every filter had released the frame, the reader is
connected and there was one to remove; otherwise the queue stays as it is. -/
theorem release_answer (s s' : Rd α) (f : Nat) (b : Bool) (h : s.removeFrame f = .ok (s', b)) :
    (b = false → s'.ring = s.ring) ∧
    (b = true → s.conn = true ∧ s.ring.rear ≠ s.ring.front ∧ s'.ring.front = (s.ring.front + 1) % s.ring.max ∧ s'.frame = none ∧
      ∀ g t r, (g, t, r) ∈ s'.filters → t = false ∧ r = false) := by
  simp only [Rd.removeFrame] at h
  by_cases ha : allRead (setReleased s.filters f) = true
  · rw [if_pos ha] at h
    by_cases hn : s.frame.isNone = true
    · rw [if_pos hn] at h; cases h
    · rw [if_neg hn] at h
      by_cases hc : (!s.conn) = true
      · rw [if_pos hc] at h
        simp only [Outcome.ok.injEq, Prod.mk.injEq] at h
        obtain ⟨rfl, rfl⟩ := h
        exact ⟨fun _ => rfl, fun h => by cases h⟩
      · rw [if_neg hc] at h
        unfold FrameQueue.Ring.removeFrame at h
        by_cases he : s.ring.rear = s.ring.front
        · rw [if_pos he] at h
          simp only [Outcome.bind_ok, Outcome.ok.injEq, Prod.mk.injEq] at h
          obtain ⟨rfl, rfl⟩ := h
          exact ⟨fun _ => rfl, fun h => by cases h⟩
        · rw [if_neg he] at h
          split at h
          · cases h
          · simp only [Outcome.bind_ok, Outcome.ok.injEq, Prod.mk.injEq] at h
            obtain ⟨rfl, rfl⟩ := h
            refine ⟨(fun h => by cases h), fun _ => ⟨by simpa using hc, he, rfl, rfl, fun g t r hm => ?_⟩⟩
            have := List.all_eq_true.1 ha _ hm
            simpa using this
  · rw [if_neg ha] at h
    simp only [Outcome.ok.injEq, Prod.mk.injEq] at h
    obtain ⟨rfl, rfl⟩ := h
    exact ⟨fun _ => rfl, fun h => by cases h⟩

example : ∃ s' : Rd Nat, (({ Rd.create (Ring.create 4 fun _ => 0) 1 with conn := false, frame := some 0 } : Rd Nat).removeFrame 1) = .ok (s', false) := ⟨_, rfl⟩

end Lms.SharedReader
