import Verif.Dash.Props

/-!
# C19: DASH audio segments
-/

namespace Lms.Dash

open Isoff

/-! ## Specification -/

/-- An audio frame in a group. -/
structure AFrm where
  data : Bytes
  dur : Nat
  pts : Nat
  deriving DecidableEq

structure ASpec where
  target : Nat
  group : List AFrm
  closed : Nat

/-- Duration of a group: the sum of the frame durations, in 32 bits. -/
def audioDuration (g : List AFrm) : Nat := (g.map AFrm.dur).sum % 2 ^ 32

structure AClosed where
  frames : List AFrm
  number : Nat

def ASpec.close (t : ASpec) : ASpec × Option AClosed :=
  if t.group = [] then (t, none) else ({ t with group := [], closed := t.closed + 1 }, some ⟨t.group, t.closed⟩)

/-- A frame is collected unless it is empty or has no duration. -/
def ASpec.add (t : ASpec) (f : Frm) (dur : Nat) : ASpec :=
  if f.data = [] ∨ dur = 0 then t else { t with group := t.group ++ [⟨f.data, dur, f.pts⟩] }

/-- Without video a group is closed when a frame arrives and the group has reached the target; with video it is
closed when the video segment is. -/
def ASpec.step (t : ASpec) : AOp → ASpec × Option AClosed
  | .frame f dur =>
    let p := if t.target ≤ audioDuration t.group then t.close else (t, none)
    (p.1.add f dur, p.2)
  | .append f dur => (t.add f dur, none)
  | .force => t.close

def ASpec.run : ASpec → List AOp → ASpec × List (Option AClosed)
  | t, [] => (t, [])
  | t, o :: os => ((ASpec.run (t.step o).1 os).1, (t.step o).2 :: (ASpec.run (t.step o).1 os).2)

/-- What a player must find: data and duration of every frame. -/
def audioPlayable (g : List AFrm) : List (RunSample × Bytes) :=
  g.map fun f => (⟨some f.dur, some f.data.length, none, none⟩, f.data)

def AFaithful (s : Seg) (c : AClosed) : Prop :=
  s.ts = ((c.frames.head?.map AFrm.pts).getD 0) % 2 ^ 32 ∧ s.dur = audioDuration c.frames ∧
  ∃ d, demux s.bytes = some d ∧ d.samples = audioPlayable c.frames ∧ d.after = [] ∧
    d.seq = c.number % 2 ^ 32 ∧ d.base = s.ts ∧ d.indexTime = s.ts ∧ d.indexDuration = s.dur ∧
    d.indexSize = d.actualSize

def AMatches : Option Seg → Option AClosed → Prop
  | none, none => True
  | some s, some c => AFaithful s c
  | _, _ => False

/-- Durations are 32-bit numbers. -/
def AOp.Valid : AOp → Prop
  | .frame _ d | .append _ d => d < 2 ^ 32
  | .force => True

/-! ## Refinement -/

def asmp (f : AFrm) : Smp := ⟨f.data.length, f.dur, f.pts % 2 ^ 32, f.pts % 2 ^ 32, true⟩

structure ARel (s : State) (t : ASpec) : Prop where
  audio : s.ctx.media = .audio
  pos : s.ctx.trunPos = 0 ∧ s.ctx.moofPos = 0
  data : s.ctx.data = (t.group.map AFrm.data).flatten
  samples : s.ctx.samples = t.group.map asmp
  ept : ∀ a, t.group.head? = some a → s.ctx.ept = a.pts % 2 ^ 32 ∧ s.ctx.seq = t.closed
  cur : s.ctx.cur = audioDuration t.group
  target : s.target = t.target
  nseg : s.nseg = t.closed
  valid : ∀ f ∈ t.group, 0 < f.data.length ∧ f.dur < 2 ^ 32

theorem audioPlayable_eq (g : List AFrm) (hv : ∀ f ∈ g, f.data.length < 2 ^ 32 ∧ f.dur < 2 ^ 32) :
    ((g.map asmp).map (expected .audio)).zip (g.map AFrm.data) = audioPlayable g := by
  induction g with
  | nil => rfl
  | cons f g ih =>
    obtain ⟨h1, h2⟩ := hv f (by simp)
    simp only [List.map_cons, List.zip_cons_cons, audioPlayable]
    congr 1
    · simp only [expected, asmp, Nat.mod_eq_of_lt h1, Nat.mod_eq_of_lt h2]
    · exact ih (fun f hf => hv f (List.mem_cons_of_mem _ hf))

theorem aclose_refines {cap : Nat} (hcap : cap < 2 ^ 32) {s s' : State} {t : ASpec} {o : Option Seg} (h : ARel s t)
    (he : close cap s = .ok (s', o)) : ARel s' t.close.1 ∧ AMatches o t.close.2 := by
  obtain ⟨hv, hp, hd, hs, hept, hcur, ht, hn, hval⟩ := h
  simp only [close] at he
  cases hg : segmentGenerator cap s.ctx with
  | ub => rw [hg] at he; cases he
  | hang => rw [hg] at he; cases he
  | ok r =>
    rw [hg] at he
    cases r with
    | err code =>
      simp only [Outcome.bind_ok] at he
      cases he
      have h0 : s.ctx.data.length = 0 := by
        simp only [segmentGenerator, store] at hg
        (repeat' split at hg) <;> cases hg
        omega
      have hg0 : t.group = [] := by
        cases hg : t.group with
        | nil => rfl
        | cons x l =>
          rw [hd, hg] at h0
          have := (hval x (by rw [hg]; simp)).1
          simp only [List.map_cons, List.flatten_cons, List.length_append] at h0; omega
      simp only [ASpec.close, if_pos hg0]
      exact ⟨⟨hv, hp, hd, hs, hept, hcur, ht, hn, hval⟩, trivial⟩
    | out c' bytes =>
      simp only [Outcome.bind_ok] at he
      cases he
      have hpos : s.ctx.trunPos = s.ctx.moofPos := hp.1.trans hp.2.symm
      have hsz : s.ctx.samples.map Smp.size = (t.group.map AFrm.data).map List.length := by
        rw [hs, List.map_map, List.map_map]; rfl
      obtain ⟨_, hdl, hle, hl2⟩ := segment_layout hcap hpos hg
      obtain ⟨seg, g1, g2, g3, g4, g5, g6, g7, g8, g9⟩ := segment_plays_back cap hcap _ c' bytes _ hpos hd hsz hg
      have hne : t.group ≠ [] := by intro e; rw [hd, e] at hdl; simp at hdl
      have hlt : ∀ f ∈ t.group, f.data.length < 2 ^ 32 ∧ f.dur < 2 ^ 32 := by
        intro x hx
        have : x.data.length ≤ s.ctx.data.length := by
          rw [hd]
          exact (List.sublist_flatten_of_mem (List.mem_map_of_mem hx)).length_le
        have : s.ctx.data.length ≤ indexed s.ctx := by simp only [indexed]; omega
        exact ⟨by omega, (hval x hx).2⟩
      obtain ⟨a, ha⟩ : ∃ a, t.group.head? = some a := by
        cases hg : t.group with
        | nil => exact absurd hg hne
        | cons a l => exact ⟨a, rfl⟩
      obtain ⟨h1, h2⟩ := hept a ha
      simp only [ASpec.close, if_neg hne]
      refine ⟨⟨?_, ⟨rfl, rfl⟩, rfl, rfl, by simp, ?_, ht, ?_, by simp⟩, ?_, ?_, seg, g1, ?_, g4, ?_, ?_, ?_, ?_, g9⟩
      · have := hl2.2.2.2.2; simp only [refresh]; rw [this]; exact hv
      · simp [audioDuration, refresh]
      · simp only [hn]
      · simp only [ha, h1, Option.map_some, Option.getD_some]
      · exact hcur
      · rw [g2, hs, hv]; exact audioPlayable_eq _ hlt
      · rw [g5, h2]
      · rw [g6, h1]; exact Nat.mod_eq_of_lt (Nat.lt_of_lt_of_le (Nat.mod_lt _ (by decide)) (by decide))
      · rw [g7, h1]; exact Nat.mod_eq_of_lt (Nat.lt_of_lt_of_le (Nat.mod_lt _ (by decide)) (by decide))
      · rw [g8, hcur]; exact Nat.mod_mod _ _

theorem aadd_refines {s s' : State} {t : ASpec} {f : Frm} {dur : Nat} {b : Bool} (h : ARel s t) (hdur : dur < 2 ^ 32)
    (he : addAudio s f dur = .ok (s', b)) : ARel s' (t.add f dur) := by
  obtain ⟨hv, hp, hd, hs, hept, hcur, ht, hn, hval⟩ := h
  simp only [addAudio] at he
  split at he
  · rename_i h0
    cases he
    have : f.data = [] := List.length_eq_zero_iff.1 (by omega)
    simp only [ASpec.add, if_pos (Or.inl this)]
    exact ⟨hv, hp, hd, hs, hept, hcur, ht, hn, hval⟩
  · rename_i h0
    split at he
    · rename_i h1
      cases he
      simp only [ASpec.add, if_pos (Or.inr (by omega : dur = 0))]
      exact ⟨hv, hp, hd, hs, hept, hcur, ht, hn, hval⟩
    · rename_i h1
      split at he
      · cases he
      · cases he
        have hx : ¬ (f.data = [] ∨ dur = 0) := by
          rintro (e | e)
          · rw [e] at h0; simp at h0
          · omega
        simp only [ASpec.add, if_neg hx]
        refine ⟨hv, hp, by simp [hd], by simp [hs, asmp], ?_, ?_, ht, hn, ?_⟩
        · intro a ha
          cases hg : t.group with
          | nil =>
            rw [hg] at ha
            simp at ha
            rw [hs, hg]
            simp [← ha, hn]
          | cons x l =>
            rw [hg] at ha
            simp at ha
            rw [hs, hg]
            simp only [List.map_cons, List.isEmpty_cons, Bool.false_eq_true, if_false]
            exact hept a (by rw [hg]; simp [ha])
        · rw [hcur]
          simp [audioDuration, Nat.add_mod]
        · intro x hx
          rcases List.mem_append.1 hx with h | h
          · exact hval x h
          · simp at h
            subst h
            exact ⟨by simp only; omega, hdur⟩

theorem astep_refines {cap : Nat} (hcap : cap < 2 ^ 32) {s s' : State} {t : ASpec} {op : AOp} {o : Option Seg}
    (h : ARel s t) (hop : op.Valid) (he : audioStep cap s op = .ok (s', o)) :
    ARel s' (t.step op).1 ∧ AMatches o (t.step op).2 := by
  cases op with
  | force => exact aclose_refines hcap h he
  | append f dur =>
    simp only [audioStep] at he
    cases ha : addAudio s f dur with
    | ub => rw [ha] at he; cases he
    | hang => rw [ha] at he; cases he
    | ok q => rw [ha] at he; cases he; exact ⟨aadd_refines h hop ha, trivial⟩
  | frame f dur =>
    simp only [audioStep] at he
    cases hg : generateAudio cap s with
    | ub => rw [hg] at he; cases he
    | hang => rw [hg] at he; cases he
    | ok r =>
      rw [hg] at he
      simp only [Outcome.bind_ok] at he
      cases ha : addAudio r.1 f dur with
      | ub => rw [ha] at he; cases he
      | hang => rw [ha] at he; cases he
      | ok q =>
        rw [ha] at he
        cases he
        simp only [generateAudio] at hg
        rw [h.target, h.cur] at hg
        simp only [ASpec.step]
        split <;> rename_i hc
        · rw [if_pos hc] at hg
          obtain ⟨r1, r2⟩ := aclose_refines hcap h hg
          exact ⟨aadd_refines r1 hop ha, r2⟩
        · rw [if_neg hc] at hg
          cases hg
          exact ⟨aadd_refines h hop ha, trivial⟩

def AAllMatch : List (Option Seg) → List (Option AClosed) → Prop
  | [], [] => True
  | a :: l, b :: m => AMatches a b ∧ AAllMatch l m
  | _, _ => False

theorem fresh_arel (target : Nat) (extra : Bytes) (timeBase w h : Nat) :
    ARel (fresh .audio target extra timeBase w h) ⟨target, [], 0⟩ :=
  ⟨rfl, ⟨rfl, rfl⟩, rfl, rfl, by simp, rfl, rfl, rfl, by simp⟩

theorem arun_refines {cap : Nat} (hcap : cap < 2 ^ 32) (ops : List AOp) {s s' : State} {t : ASpec}
    {outs : List (Option Seg)} (h : ARel s t) (hf : ∀ f ∈ ops, f.Valid)
    (he : runOps (audioStep cap) s ops = .ok (s', outs)) :
    ARel s' (t.run ops).1 ∧ AAllMatch outs (t.run ops).2 := by
  induction ops generalizing s t outs with
  | nil =>
    simp [runOps] at he
    obtain ⟨rfl, rfl⟩ := he
    exact ⟨h, trivial⟩
  | cons f fs ih =>
    obtain ⟨s1, o, outs', h1, h2, rfl⟩ := runOps_cons_ok he
    obtain ⟨r1, r2⟩ := astep_refines hcap h (hf f (by simp)) h1
    obtain ⟨r3, r4⟩ := ih r1 (fun x hx => hf x (List.mem_cons_of_mem _ hx)) h2
    exact ⟨r3, r2, r4⟩

/-- **C19 (audio).**  Any sequence of frames and forced closings given to a configured audio segmenter yields, unless a buffer
overflows, exactly the segments of the specification: a group is closed when it has reached the target (or the
video segment is complete), with all its frames, the start of its first (in 32 bits) and the sum of durations. -/
theorem audio_segments (cap : Nat) (hcap : cap < 2 ^ 32) (target : Nat) (extra : Bytes) (timeBase w h : Nat)
    (ops : List AOp) (hv : ∀ o ∈ ops, o.Valid) (s' : State) (outs : List (Option Seg))
    (he : runOps (audioStep cap) (fresh .audio target extra timeBase w h) ops = .ok (s', outs)) :
    AAllMatch outs (ASpec.run ⟨target, [], 0⟩ ops).2 :=
  (arun_refines hcap ops (fresh_arel target extra timeBase w h) hv he).2

/-- The frames handed over that have data and a duration. -/
def accepted : List AOp → List AFrm
  | [] => []
  | .frame f d :: l | .append f d :: l => (if f.data = [] ∨ d = 0 then [] else [⟨f.data, d, f.pts⟩]) ++ accepted l
  | .force :: l => accepted l

theorem aclose_partition (t : ASpec) : (t.close.2.toList.map AClosed.frames).flatten ++ t.close.1.group = t.group := by
  unfold ASpec.close
  split
  · simp
  · simp

/-- **C19 (audio: every frame in exactly one group, in order).** -/
theorem audio_partition (ops : List AOp) (t : ASpec) :
    (((t.run ops).2.filterMap id).map AClosed.frames).flatten ++ (t.run ops).1.group = t.group ++ accepted ops := by
  induction ops generalizing t with
  | nil => simp [ASpec.run, accepted]
  | cons op ops ih =>
    have hcons : (t.run (op :: ops)).2.filterMap id = (t.step op).2.toList ++ ((t.step op).1.run ops).2.filterMap id := by
      simp only [ASpec.run, List.filterMap_cons, id]
      cases (t.step op).2 <;> rfl
    have hrun : (t.run (op :: ops)).1 = ((t.step op).1.run ops).1 := rfl
    rw [hcons, hrun, List.map_append, List.flatten_append, List.append_assoc, ih]
    have hadd : ∀ (u : ASpec) (f : Frm) (d : Nat), (u.add f d).group =
        u.group ++ (if f.data = [] ∨ d = 0 then [] else [⟨f.data, d, f.pts⟩]) := by
      intro u f d
      unfold ASpec.add
      split <;> simp
    cases op with
    | force => rw [← List.append_assoc]; simp only [ASpec.step, accepted]; rw [aclose_partition]
    | append f d => simp only [ASpec.step, accepted, hadd]; simp
    | frame f d =>
      simp only [ASpec.step, accepted, hadd]
      split
      · rw [← List.append_assoc, ← List.append_assoc, aclose_partition, List.append_assoc]
      · simp

/-- **C19 (audio: groups reach the target).**  Without video, every closed group has reached the target. -/
theorem audio_reaches_target (ops : List AOp) (hops : ∀ o ∈ ops, o ≠ .force) (t : ASpec) :
    ∀ c ∈ (t.run ops).2.filterMap id, c.frames ≠ [] ∧ t.target ≤ audioDuration c.frames := by
  induction ops generalizing t with
  | nil => intro c hc; simp [ASpec.run] at hc
  | cons op ops ih =>
    intro c hc
    have hcons : (t.run (op :: ops)).2.filterMap id = (t.step op).2.toList ++ ((t.step op).1.run ops).2.filterMap id := by
      simp only [ASpec.run, List.filterMap_cons, id]
      cases (t.step op).2 <;> rfl
    rw [hcons] at hc
    have hadd : ∀ (u : ASpec) (f : Frm) (d : Nat), (u.add f d).target = u.target := by
      intro u f d
      unfold ASpec.add
      split <;> rfl
    have hclose : t.close.1.target = t.target := by unfold ASpec.close; split <;> rfl
    have htar : (t.step op).1.target = t.target := by
      cases op with
      | force => exact hclose
      | append f d => exact hadd _ _ _
      | frame f d =>
        simp only [ASpec.step, hadd]
        split
        · exact hclose
        · rfl
    rcases List.mem_append.1 hc with h | h
    · cases op with
      | force => exact absurd rfl (hops .force (by simp))
      | append f d => simp [ASpec.step] at h
      | frame f d =>
        simp only [ASpec.step] at h
        split at h
        · rename_i h1
          unfold ASpec.close at h
          split at h
          · simp at h
          · rename_i h2
            simp at h
            subst h
            exact ⟨h2, h1⟩
        · simp at h
    · have := ih (fun o ho => hops o (List.mem_cons_of_mem _ ho)) (t.step op).1 c h
      rw [htar] at this
      exact this

/-- An audio stream without video: target 100, frames of 40; three frames per segment. -/
example : spans (runOps (audioStep 1000) (fresh .audio 100 [] 48000 0 0)
    [.frame (fr 0 0 true) 40, .frame (fr 40 40 true) 40, .frame (fr 80 80 true) 40, .frame (fr 120 120 true) 40]) =
    some [(0, 120)] := by decide +kernel

/-- **C19 (audio start times are cut to 32 bits).** -/
theorem audio_start_truncated : spans (runOps (audioStep 1000) (fresh .audio 100 [] 48000 0 0)
    [.append (fr (2 ^ 32 + 5) (2 ^ 32 + 5) true) 40, .force]) = some [(5, 40)] := by decide +kernel

end Lms.Dash
