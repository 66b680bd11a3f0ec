import Verif.Dash.Model
import Verif.Isoff.Segment

/-!
# C19: specification of video segmentation, and refinement
-/

namespace Lms.Dash

open Isoff

/-! ## Specification of video segmentation -/

/-- A number of 32 bits. -/
def wrap (x : Int) : Nat := (x % 2 ^ 32).toNat

/-- Accumulated duration of the open group: decode time from its first to its last frame. -/
def decoded (g : List Frm) : Nat :=
  match g.head?, g.getLast? with
  | some a, some b => wrap (b.dts - a.dts)
  | _, _ => 0

/-- Duration of the last frame, known when the next arrives. -/
def lastDuration (g : List Frm) (next : Nat) : Nat :=
  match g.getLast? with
  | some b => wrap (next - b.pts)
  | none => 0

/-- The duration of a closed group. -/
def groupDuration (g : List Frm) (next : Nat) : Nat := wrap (decoded g + lastDuration g next)

/-- A closed group: its frames, the presentation time of the frame that closed it, its number. -/
structure Closed where
  frames : List Frm
  next : Nat
  number : Nat

structure Spec where
  target : Nat
  group : List Frm
  closed : Nat

/-- The decision taken when a frame arrives. -/
def Spec.closes (t : Spec) (f : Frm) : Prop :=
  t.group ≠ [] ∧ f.intra = true ∧
    wrap (t.target - lastDuration t.group f.pts) ≤ groupDuration t.group f.pts

open Classical in
/-- A frame arrives: the group is closed if the rule says so; then the frame is added, unless the group is
empty and the frame is not intra. -/
noncomputable def Spec.step (t : Spec) (f : Frm) : Spec × Option Closed :=
  let p : Spec × Option Closed :=
    if t.closes f then ({ t with group := [], closed := t.closed + 1 }, some ⟨t.group, f.pts, t.closed⟩)
    else (t, none)
  if p.1.group = [] ∧ f.intra = false then p else ({ p.1 with group := p.1.group ++ [f] }, p.2)

/-- What a player must find in a closed group: every frame with its data, duration, key flag and composition
offset. -/
def playable : List Frm → Nat → List (RunSample × Bytes)
  | [], _ => []
  | [f], next =>
    [(⟨some (wrap (next - f.pts)), some f.data.length, some (if f.intra then 0 else 0x10000),
       some (wrap (f.pts - f.dts))⟩, f.data)]
  | f :: g :: l, next =>
    (⟨some (wrap (g.dts - f.dts)), some f.data.length, some (if f.intra then 0 else 0x10000),
       some (wrap (f.pts - f.dts))⟩, f.data) :: playable (g :: l) next

/-- A segment written for a closed group: announced start and duration, and everything a player reads. -/
def Faithful (s : Seg) (c : Closed) : Prop :=
  s.ts = (c.frames.head?.map Frm.pts).getD 0 ∧ s.dur = groupDuration c.frames c.next ∧
  ∃ d, demux s.bytes = some d ∧ d.samples = playable c.frames c.next ∧ d.after = [] ∧
    d.seq = c.number % 2 ^ 32 ∧ d.base = s.ts ∧ d.indexTime = s.ts ∧ d.indexDuration = s.dur ∧
    d.indexSize = d.actualSize

/-- A segment is written exactly when a group is closed, and it is that group's. -/
def Matches : Option Seg → Option Closed → Prop
  | none, none => True
  | some s, some c => Faithful s c
  | _, _ => False

/-- Frames the segmenter is given: not empty, 64-bit time stamps (DashVideoSegmenter.cpp:56). -/
def Frm.Valid (f : Frm) : Prop := 0 < f.data.length ∧ f.pts < 2 ^ 64 ∧ f.dts < 2 ^ 64

/-! ## The samples of a group -/

def smp (f : Frm) (d : Nat) : Smp := ⟨f.data.length, d, f.pts, f.dts, f.intra⟩

def mkSamples : List Frm → Nat → List Smp
  | [], _ => []
  | [f], x => [smp f x]
  | f :: g :: l, x => smp f (wrap (g.dts - f.dts)) :: mkSamples (g :: l) x

theorem mkSamples_getLast (g : List Frm) (x : Nat) :
    (mkSamples g x).getLast? = g.getLast?.map fun f => smp f x := by
  fun_induction mkSamples g x with
  | case1 => rfl
  | case2 => rfl
  | case3 f g l x ih =>
    rw [List.getLast?_cons_cons, ← ih]
    cases hm : mkSamples (g :: l) x with
    | nil => cases l <;> simp [mkSamples] at hm
    | cons a b => rw [List.getLast?_cons_cons]

theorem mkSamples_ne (g : List Frm) (x : Nat) (h : g ≠ []) : mkSamples g x ≠ [] := by
  fun_cases mkSamples g x <;> simp_all

theorem setLast_mk (g : List Frm) (x y : Nat) : setLast (mkSamples g x) y = mkSamples g y := by
  fun_induction mkSamples g x with
  | case1 => rfl
  | case2 => rfl
  | case3 f g l x ih =>
    have hne := mkSamples_ne (g :: l) x (by simp)
    rw [mkSamples, ← ih]
    unfold setLast
    cases hm : mkSamples (g :: l) x with
    | nil => exact absurd hm hne
    | cons a b =>
      rw [List.getLast?_cons_cons]
      cases hl : (a :: b).getLast? with
      | none => simp at hl
      | some z => simp [List.dropLast]

theorem mkSamples_append (g : List Frm) (l f : Frm) (x y : Nat) (h : g.getLast? = some l) :
    mkSamples (g ++ [f]) x = setLast (mkSamples g y) (wrap (f.dts - l.dts)) ++ [smp f x] := by
  rw [setLast_mk]
  induction g with
  | nil => simp at h
  | cons a g ih =>
    cases g with
    | nil =>
      simp at h; subst h; rfl
    | cons b g =>
      rw [List.getLast?_cons_cons] at h
      have := ih h
      simp only [List.cons_append] at this ⊢
      simp only [mkSamples, this, List.cons_append]

theorem mkSamples_sizes (g : List Frm) (x : Nat) : (mkSamples g x).map Smp.size = (g.map Frm.data).map List.length := by
  fun_induction mkSamples g x with
  | case1 => rfl
  | case2 => rfl
  | case3 f g l x ih => simp only [List.map_cons] at ih ⊢; rw [ih]; rfl

theorem mkSamples_length (g : List Frm) (x : Nat) : (mkSamples g x).length = g.length := by
  have := congrArg List.length (mkSamples_sizes g x); simpa using this

theorem wrap_lt (x : Int) : wrap x < 2 ^ 32 := by unfold wrap; omega

theorem groupDuration_lt (g : List Frm) (next : Nat) : groupDuration g next < 2 ^ 32 := wrap_lt _

theorem playable_eq (m : Media) (hm : m.isVideo = true) (g : List Frm) (next : Nat)
    (hv : ∀ f ∈ g, f.Valid) (hl : ∀ f ∈ g, f.data.length < 2 ^ 32) :
    ((mkSamples g (lastDuration g next)).map (expected m)).zip (g.map Frm.data) = playable g next := by
  have he : ∀ (f : Frm) (d : Nat), f.Valid → f.data.length < 2 ^ 32 → d < 2 ^ 32 →
      expected m (smp f d) = ⟨some d, some f.data.length, some (if f.intra then 0 else 0x10000),
        some (wrap (f.pts - f.dts))⟩ := by
    intro f d ⟨_, h1, h2⟩ hl hd
    have e1 : d % 2 ^ 32 = d := Nat.mod_eq_of_lt hd
    have e2 : f.data.length % 2 ^ 32 = f.data.length := Nat.mod_eq_of_lt hl
    have e3 : (f.pts + 2 ^ 64 - f.dts) % 2 ^ 32 = wrap (f.pts - f.dts) := by unfold wrap; omega
    cases m with
    | audio => exact absurd hm (by decide)
    | avc => cases hi : f.intra <;> simp only [expected, smp, e1, e2, e3, hi] <;> simp
    | hevc => cases hi : f.intra <;> simp only [expected, smp, e1, e2, e3, hi] <;> simp
  fun_induction playable g next with
  | case1 => rfl
  | case2 f next =>
    simp only [lastDuration, List.getLast?_singleton, mkSamples, List.map_cons, List.map_nil, List.zip_cons_cons,
      List.zip_nil_right]
    rw [he f _ (hv f (by simp)) (hl f (by simp)) (wrap_lt _)]
  | case3 f g l next ih =>
    have e : lastDuration (f :: g :: l) next = lastDuration (g :: l) next := by
      simp only [lastDuration, List.getLast?_cons_cons]
    rw [e]
    simp only [mkSamples, List.map_cons, List.zip_cons_cons]
    rw [he f _ (hv f (by simp)) (hl f (by simp)) (wrap_lt _)]
    congr 1
    exact ih (fun f hf => hv f (List.mem_cons_of_mem _ hf)) (fun f hf => hl f (List.mem_cons_of_mem _ hf))

/-! ## Refinement -/

structure Rel (s : State) (t : Spec) : Prop where
  video : s.ctx.media.isVideo = true
  pos : s.ctx.trunPos = 0 ∧ s.ctx.moofPos = 0
  data : s.ctx.data = (t.group.map Frm.data).flatten
  samples : s.ctx.samples = mkSamples t.group 0
  ept : ∀ a, t.group.head? = some a → s.ctx.ept = a.pts ∧ s.ctx.seq = t.closed ∧ s.ctx.cur = decoded t.group
  target : s.target = t.target
  nseg : s.nseg = t.closed
  tlt : t.target < 2 ^ 32
  valid : ∀ f ∈ t.group, f.Valid

theorem close_refines {cap : Nat} (hcap : cap < 2 ^ 32) {s s' : State} {t : Spec} {f : Frm} {o : Option Seg}
    (h : Rel s t) (hne : t.group ≠ [])
    (he : close cap { s with ctx := { s.ctx with
      samples := setLast s.ctx.samples (lastDuration t.group f.pts)
      cur := groupDuration t.group f.pts } } = .ok (s', o)) :
    Rel s' { t with group := [], closed := t.closed + 1 } ∧
      ∃ seg, o = some seg ∧ Faithful seg ⟨t.group, f.pts, t.closed⟩ := by
  obtain ⟨hv, hp, hd, hs, hept, ht, hn, htl, hval⟩ := h
  obtain ⟨a, ha⟩ : ∃ a, t.group.head? = some a := by
    cases hg : t.group with
    | nil => exact absurd hg hne
    | cons a l => exact ⟨a, rfl⟩
  obtain ⟨h1, h2, h3⟩ := hept a ha
  have hdl : 0 < s.ctx.data.length := by
    cases hg : t.group with
    | nil => exact absurd hg hne
    | cons x l =>
      rw [hd, hg]
      have := (hval x (by rw [hg]; simp)).1
      simp only [List.map_cons, List.flatten_cons, List.length_append]; omega
  simp only [close] at he
  obtain ⟨c, hc⟩ : ∃ c : Ctx, c = { s.ctx with
      samples := setLast s.ctx.samples (lastDuration t.group f.pts)
      cur := groupDuration t.group f.pts } := ⟨_, rfl⟩
  rw [← hc] at he
  cases hg : segmentGenerator cap c with
  | ub => rw [hg] at he; cases he
  | hang => rw [hg] at he; cases he
  | ok r =>
    rw [hg] at he
    cases r with
    | err code =>
      exfalso
      simp only [segmentGenerator, store] at hg
      have e0 : c.data.length = s.ctx.data.length := by rw [hc]
      (repeat' split at hg) <;> cases hg
      omega
    | out c' bytes =>
      simp only [Outcome.bind_ok] at he
      cases he
      have hpos : c.trunPos = c.moofPos := by rw [hc]; exact hp.1.trans hp.2.symm
      have hsz : c.samples.map Smp.size = (t.group.map Frm.data).map List.length := by
        rw [hc]; simp only [hs, setLast_mk, mkSamples_sizes]
      have hdata : c.data = (t.group.map Frm.data).flatten := by rw [hc]; exact hd
      obtain ⟨_, _, hle, hl2⟩ := segment_layout hcap hpos hg
      obtain ⟨seg, g1, g2, g3, g4, g5, g6, g7, g8, g9⟩ := segment_plays_back cap hcap c c' bytes _ hpos hdata hsz hg
      have hlt : ∀ f ∈ t.group, f.data.length < 2 ^ 32 := by
        intro x hx
        have : x.data.length ≤ c.data.length := by
          rw [hdata]
          exact (List.sublist_flatten_of_mem (List.mem_map_of_mem hx)).length_le
        have : c.data.length ≤ indexed c := by simp only [indexed]; omega
        omega
      have hav := hval a (List.mem_of_head? ha)
      refine ⟨⟨?_, ?_, ?_, ?_, ?_, ht, ?_, htl, by simp⟩, _, rfl, ?_, ?_, seg, g1, ?_, g4, ?_, ?_, ?_, ?_, g9⟩
      · have := hl2.2.2.2.2; simp only [refresh]; rw [this, hc]; exact hv
      · exact ⟨rfl, rfl⟩
      · rfl
      · rfl
      · intro a h; simp at h
      · simp only [hn]
      · simp only [ha]; exact h1
      · rfl
      · rw [g2, hc]
        simp only [hs, setLast_mk]
        exact playable_eq _ hv _ _ hval hlt
      · rw [g5, hc]; simp only [h2]
      · rw [g6, hc]; simp only [h1]; exact Nat.mod_eq_of_lt hav.2.1
      · rw [g7, hc]; simp only [h1]; exact Nat.mod_eq_of_lt hav.2.1
      · rw [g8, hc]; exact Nat.mod_eq_of_lt (groupDuration_lt _ _)

theorem add_refines {s s' : State} {t : Spec} {f : Frm} {b : Bool} (h : Rel s t) (hf : f.Valid)
    (he : addVideo s f = .ok (s', b)) :
    Rel s' (if t.group = [] ∧ f.intra = false then t else { t with group := t.group ++ [f] }) := by
  obtain ⟨hv, hp, hd, hs, hept, ht, hn, htl, hval⟩ := h
  simp only [addVideo] at he
  rw [if_neg (by have := hf.1; omega)] at he
  have hemp : s.ctx.samples.isEmpty = true ↔ t.group = [] := by
    rw [hs]
    constructor
    · intro h
      cases hg : t.group with
      | nil => rfl
      | cons a l =>
        exact absurd (List.isEmpty_iff.1 h) (mkSamples_ne _ _ (by simp [hg]))
    · intro h; rw [h]; rfl
  split at he
  · rename_i hc
    cases he
    rw [if_pos ⟨hemp.1 hc.1, hc.2⟩]
    exact ⟨hv, hp, hd, hs, hept, ht, hn, htl, hval⟩
  · rename_i hc
    rw [if_neg (fun h => hc ⟨hemp.2 h.1, h.2⟩)]
    split at he
    · cases he
    · have hval' : ∀ x ∈ t.group ++ [f], x.Valid := by
        intro x hx
        rcases List.mem_append.1 hx with h | h
        · exact hval x h
        · simp at h; rw [h]; exact hf
      rw [hs, mkSamples_getLast] at he
      cases hl : t.group.getLast? with
      | none =>
        have hg : t.group = [] := List.getLast?_eq_none_iff.1 hl
        rw [hl] at he
        simp only [Option.map_none] at he
        cases he
        refine ⟨hv, hp, ?_, ?_, ?_, ht, hn, htl, hval'⟩
        · simp [hd]
        · rw [hg]; rfl
        · intro a ha
          rw [hg] at ha ⊢
          simp at ha
          subst ha
          exact ⟨rfl, hn, by simp [decoded, wrap]⟩
      | some l =>
        rw [hl] at he
        have hlv : l.Valid := hval l (List.mem_of_getLast? hl)
        have hdur : ((f.dts + 2 ^ 64 - l.dts) % 2 ^ 64 % 2 ^ 32) = wrap (f.dts - l.dts) := by
          have h1 := hlv.2.2
          have h2 := hf.2.2
          unfold wrap; omega
        have hsd : (smp l 0).dts = l.dts := rfl
        simp only [Option.map_some, hsd, hdur] at he
        cases he
        refine ⟨hv, hp, ?_, ?_, ?_, ht, hn, htl, hval'⟩
        · simp [hd]
        · rw [mkSamples_append t.group l f 0 0 hl]; rfl
        · intro a ha
          have ha' : t.group.head? = some a := by
            cases hg : t.group with
            | nil => rw [hg] at hl; simp at hl
            | cons x y => rw [hg] at ha; exact ha
          obtain ⟨h1, h2, h3⟩ := hept a ha'
          refine ⟨h1, h2, ?_⟩
          simp only [h3, decoded, ha', hl, ha, List.getLast?_concat]
          unfold wrap; omega

theorem generate_refines {cap : Nat} (hcap : cap < 2 ^ 32) {s s1 : State} {t : Spec} {f : Frm} {o1 : Option Seg}
    (h : Rel s t) (hg : generateVideo cap s f.intra f.pts = .ok (s1, o1)) :
    (t.closes f → Rel s1 { t with group := [], closed := t.closed + 1 } ∧
      ∃ seg, o1 = some seg ∧ Faithful seg ⟨t.group, f.pts, t.closed⟩) ∧
    (¬ t.closes f → Rel s1 t ∧ o1 = none) := by
  simp only [generateVideo] at hg
  rw [h.samples, mkSamples_getLast] at hg
  cases hl : t.group.getLast? with
  | none =>
    have hg0 : t.group = [] := List.getLast?_eq_none_iff.1 hl
    rw [hl] at hg
    cases hg
    exact ⟨fun hc => absurd hg0 hc.1, fun _ => ⟨h, rfl⟩⟩
  | some l =>
    rw [hl] at hg
    simp only [Option.map_some] at hg
    have hne : t.group ≠ [] := by intro e; rw [e] at hl; simp at hl
    obtain ⟨a, ha⟩ : ∃ a, t.group.head? = some a := by
      cases hg : t.group with
      | nil => exact absurd hg hne
      | cons a l => exact ⟨a, rfl⟩
    obtain ⟨e1, e2, e3⟩ := h.ept a ha
    have hlv : l.Valid := h.valid l (List.mem_of_getLast? hl)
    have hlast : (f.pts % 2 ^ 32 + 2 ^ 64 - l.pts) % 2 ^ 64 % 2 ^ 32 = lastDuration t.group f.pts := by
      simp only [lastDuration, hl]
      have := hlv.2.1
      unfold wrap; omega
    have hsl : (smp l 0).pts = l.pts := rfl
    have hld : lastDuration t.group f.pts < 2 ^ 32 := by
      simp only [lastDuration, hl]; exact wrap_lt _
    have hw1 : (s.target + 2 ^ 32 - lastDuration t.group f.pts) % 2 ^ 32 =
        wrap (t.target - lastDuration t.group f.pts) := by
      rw [h.target]; unfold wrap; omega
    have hw2 : (s.ctx.cur + lastDuration t.group f.pts) % 2 ^ 32 = groupDuration t.group f.pts := by
      rw [e3]; unfold groupDuration wrap; omega
    rw [hsl, hlast] at hg
    simp only [closeIf] at hg
    rw [hw1, hw2] at hg
    constructor
    · intro hc
      rw [if_pos ⟨hc.2.1, hc.2.2⟩] at hg
      exact close_refines hcap h hne hg
    · intro hc
      rw [if_neg (fun hh => hc ⟨hne, hh.1, hh.2⟩)] at hg
      cases hg
      exact ⟨h, rfl⟩

theorem frame_refines {cap : Nat} (hcap : cap < 2 ^ 32) {s s' : State} {t : Spec} {f : Frm} {o : Option Seg}
    (h : Rel s t) (hf : f.Valid) (he : videoFrame cap s f = .ok (s', o)) :
    Rel s' (t.step f).1 ∧
      Matches o (t.step f).2 := by
  simp only [videoFrame] at he
  cases hg : generateVideo cap s f.intra f.pts with
  | ub => rw [hg] at he; cases he
  | hang => rw [hg] at he; cases he
  | ok r =>
    rw [hg] at he
    simp only [Outcome.bind_ok] at he
    cases ha : addVideo r.1 f with
    | ub => rw [ha] at he; cases he
    | hang => rw [ha] at he; cases he
    | ok q =>
      rw [ha] at he
      simp only [Outcome.bind_ok] at he
      cases he
      obtain ⟨c1, c2⟩ := generate_refines hcap h hg
      simp only [Spec.step]
      by_cases hc : t.closes f
      · obtain ⟨r1, seg, ho, hfa⟩ := c1 hc
        have := add_refines r1 hf ha
        simp only [if_pos hc, ho]
        simp only at this
        split <;> rename_i hx
        · rw [if_pos hx] at this; exact ⟨this, hfa⟩
        · rw [if_neg hx] at this; exact ⟨this, hfa⟩
      · obtain ⟨r1, ho⟩ := c2 hc
        have := add_refines r1 hf ha
        simp only [if_neg hc, ho]
        split <;> rename_i hx
        · rw [if_pos hx] at this; exact ⟨this, trivial⟩
        · rw [if_neg hx] at this; exact ⟨this, trivial⟩

end Lms.Dash
