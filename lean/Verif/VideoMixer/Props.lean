import Mathlib.Data.Rat.Floor
import Mathlib.Tactic.Linarith
import Mathlib.Tactic.NormNum
import Verif.VideoMixer.Model

/-!
# C34, C35: what the video mixer paints, and where
-/

namespace Lms.VideoMixer

variable {Pix : Type}

/-! ## Specification -/

/-- A channel to be painted. -/
structure Layer (Pix : Type) where
  id : Int
  ch : Ch
  frame : Frame Pix

/-- Painted earlier: on a lower layer, or on the same layer with a lower channel number. -/
def Below (a b : Layer Pix) : Prop := a.ch.layer < b.ch.layer ∨ (a.ch.layer = b.ch.layer ∧ a.id < b.id)

/-- The rectangle a channel covers. -/
def Layer.rect (e : Layer Pix) (W H : Int) : Rect :=
  clip W H (px e.ch.x W) (px e.ch.y H) (px e.ch.width W) (px e.ch.height H)

def Rect.has (r : Rect) (i j : Int) : Prop := r.x ≤ i ∧ i < r.x + r.w ∧ r.y ≤ j ∧ j < r.y + r.h

instance (r : Rect) (i j : Int) : Decidable (r.has i j) := by unfold Rect.has; infer_instance

/-- The channel's own pixel at a place of the mixed picture: of the frame as it is if it has the size of the channel, otherwise of the resized
one. -/
def Layer.pixel (L : Lib Pix) (e : Layer Pix) (W H i j : Int) : Pix :=
  (if e.frame.width = px e.ch.width W ∧ e.frame.height = px e.ch.height H then e.frame.pix
   else L.resize e.frame.width e.frame.height e.frame.pix (px e.ch.width W) (px e.ch.height H)) (i - (e.rect W H).x) (j - (e.rect W H).y)

theorem pixel_fitted (L : Lib Pix) (e : Layer Pix) (W H i j : Int) :
    e.pixel L W H i j = fitted L e.frame (px e.ch.width W) (px e.ch.height H) (i - (e.rect W H).x) (j - (e.rect W H).y) := by
  unfold Layer.pixel fitted
  by_cases h : e.frame.width = px e.ch.width W ∧ e.frame.height = px e.ch.height H
  · rw [if_pos h, if_neg]; rintro (q | q); exacts [q h.2, q h.1]
  · rw [if_neg h, if_pos]
    by_cases h1 : e.frame.height = px e.ch.height H
    · exact .inr fun h2 => h ⟨h2, h1⟩
    · exact .inl h1

/-- One pixel over another. -/
def Layer.over (L : Lib Pix) (e : Layer Pix) (W H i j : Int) (under : Pix) : Pix :=
  if e.ch.opacity = 1 then e.pixel L W H i j else L.blend e.ch.opacity (e.pixel L W H i j) under

/-- What is seen at a place when the given channels are painted in order on black. -/
def seen (L : Lib Pix) (l : List (Layer Pix)) (W H i j : Int) : Pix :=
  (l.filter fun e => (e.rect W H).has i j).foldl (fun under e => e.over L W H i j under) L.black

/-! ## Order of painting -/

/-- The enabled channels of one layer that have a frame. -/
def onLayer (s : St) (lay : Int) (frames : List (Int × Option (Frame Pix))) : List (Layer Pix) :=
  frames.filterMap fun e =>
    match s.chans e.1, e.2 with
    | some c, some f => if c.layer = lay ∧ c.enabled = true then some ⟨e.1, c, f⟩ else none
    | _, _ => none

/-- The channels of `n` layers from `lay` on. -/
def orderFrom (s : St) (frames : List (Int × Option (Frame Pix))) : Nat → Int → List (Layer Pix)
  | 0, _ => []
  | n + 1, lay => onLayer s lay frames ++ orderFrom s frames n (lay + 1)

/-- The channels in the order in which they are painted. -/
def order (s : St) (frames : List (Int × Option (Frame Pix))) : List (Layer Pix) := orderFrom s frames s.maxCh 0

theorem mem_onLayer (s : St) (lay : Int) (frames : List (Int × Option (Frame Pix))) (e : Layer Pix) :
    e ∈ onLayer s lay frames ↔ (e.id, some e.frame) ∈ frames ∧ s.chans e.id = some e.ch ∧ e.ch.enabled = true ∧ e.ch.layer = lay := by
  unfold onLayer
  rw [List.mem_filterMap]
  constructor
  · rintro ⟨⟨id, fr⟩, hm, h⟩
    cases hc : s.chans id with
    | none => simp [hc] at h
    | some c =>
      cases fr with
      | none => simp [hc] at h
      | some f =>
        simp only [hc] at h
        split at h
        · rename_i hh
          simp only [Option.some.injEq] at h
          subst h
          exact ⟨hm, hc, hh.2, hh.1⟩
        · exact absurd h (by simp)
  · rintro ⟨h1, h2, h3, h4⟩
    refine ⟨(e.id, some e.frame), h1, ?_⟩
    simp only [h2]
    rw [if_pos ⟨h4, h3⟩]

theorem mem_orderFrom (s : St) (frames : List (Int × Option (Frame Pix))) (e : Layer Pix) : ∀ (n : Nat) (lay : Int),
    e ∈ orderFrom s frames n lay ↔ (e.id, some e.frame) ∈ frames ∧ s.chans e.id = some e.ch ∧ e.ch.enabled = true ∧
      lay ≤ e.ch.layer ∧ e.ch.layer < lay + n := by
  intro n
  induction n with
  | zero =>
    intro lay
    simp only [orderFrom, List.not_mem_nil, false_iff]
    rintro ⟨_, _, _, h1, h2⟩
    omega
  | succ n ih =>
    intro lay
    rw [orderFrom, List.mem_append, mem_onLayer, ih]
    constructor
    · rintro (⟨h1, h2, h3, h4⟩ | ⟨h1, h2, h3, h4, h5⟩)
      · exact ⟨h1, h2, h3, by omega, by push_cast; omega⟩
      · exact ⟨h1, h2, h3, by omega, by push_cast; omega⟩
    · rintro ⟨h1, h2, h3, h4, h5⟩
      by_cases h : e.ch.layer = lay
      · exact Or.inl ⟨h1, h2, h3, h⟩
      · refine Or.inr ⟨h1, h2, h3, by omega, ?_⟩
        push_cast at h5; omega

/-- **C34, which channels.** -/
theorem mem_order (s : St) (frames : List (Int × Option (Frame Pix))) (e : Layer Pix) :
    e ∈ order s frames ↔ (e.id, some e.frame) ∈ frames ∧ s.chans e.id = some e.ch ∧ e.ch.enabled = true ∧
      0 ≤ e.ch.layer ∧ e.ch.layer < s.maxCh := by
  unfold order
  rw [mem_orderFrom]
  simp

theorem sorted_onLayer (s : St) (lay : Int) (frames : List (Int × Option (Frame Pix))) (h : frames.Pairwise fun a b => a.1 < b.1) :
    (onLayer s lay frames).Pairwise Below := by
  induction frames with
  | nil => exact List.Pairwise.nil
  | cons x frames ih =>
    obtain ⟨h1, h2⟩ := List.pairwise_cons.1 h
    have hr := ih h2
    unfold onLayer at hr ⊢
    rw [List.filterMap_cons]
    split
    · exact hr
    · rename_i e he
      rw [List.pairwise_cons]
      refine ⟨?_, hr⟩
      intro b hb
      have hb' := (mem_onLayer s lay frames b).1 hb
      have he' := (mem_onLayer s lay [x] e).1 (by simp [onLayer, List.filterMap_cons, he])
      obtain ⟨e1, e2, e3, e4⟩ := he'
      simp only [List.mem_singleton] at e1
      refine Or.inr ⟨by rw [e4, hb'.2.2.2], ?_⟩
      have := h1 _ hb'.1
      rw [← e1] at this
      exact this

theorem sorted_orderFrom (s : St) (frames : List (Int × Option (Frame Pix))) (h : frames.Pairwise fun a b => a.1 < b.1) :
    ∀ (n : Nat) (lay : Int), (orderFrom s frames n lay).Pairwise Below := by
  intro n
  induction n with
  | zero => intro lay; exact List.Pairwise.nil
  | succ n ih =>
    intro lay
    rw [orderFrom, List.pairwise_append]
    refine ⟨sorted_onLayer s lay frames h, ih _, ?_⟩
    intro a ha b hb
    have := ((mem_onLayer s lay frames a).1 ha).2.2.2
    have hb' := ((mem_orderFrom s frames b n (lay + 1)).1 hb).2.2.2.1
    exact Or.inl (by omega)

/-- **C34, in which order.** Each channel comes once, lower layers first. -/
theorem sorted_order (s : St) (frames : List (Int × Option (Frame Pix))) (h : frames.Pairwise fun a b => a.1 < b.1) :
    (order s frames).Pairwise Below := sorted_orderFrom s frames h _ _

/-! ## The loop paints in that order -/

/-- Painting a list of channels. -/
def paint (L : Lib Pix) (W H : Int) : List (Layer Pix) → (Int → Int → Pix) × Int → Res ((Int → Int → Pix) × Int)
  | [], k => .ok k
  | e :: l, k =>
    if e.frame.isVideo = false then .refused
    else match paste L W H e.ch e.frame k.1 with
      | none => .abort
      | some img => paint L W H l (img, max e.frame.pts k.2)

def Res.map {σ τ : Type} (f : σ → τ) : Res σ → Res τ
  | .ok s => .ok (f s)
  | .refused => .refused
  | .abort => .abort

def Res.bind {σ τ : Type} (r : Res σ) (f : σ → Res τ) : Res τ :=
  match r with
  | .ok s => f s
  | .refused => .refused
  | .abort => .abort

theorem paint_append (L : Lib Pix) (W H : Int) (a b : List (Layer Pix)) (k : (Int → Int → Pix) × Int) :
    paint L W H (a ++ b) k = (paint L W H a k).bind fun k' => paint L W H b k' := by
  induction a generalizing k with
  | nil => rfl
  | cons e a ih =>
    rw [List.cons_append, paint, paint]
    by_cases h : e.frame.isVideo = false
    · rw [if_pos h, if_pos h]; rfl
    · rw [if_neg h, if_neg h]
      cases paste L W H e.ch e.frame k.1 with
      | none => rfl
      | some img => exact ih _

def Work.out (k : Work Pix) : (Int → Int → Pix) × Int := (k.img, k.ts)

/-- How many frames belong to channels of a layer. -/
def countOn (s : St) (p : Int → Bool) (frames : List (Int × Option (Frame Pix))) : Nat :=
  frames.countP fun e => match s.chans e.1 with
    | some c => p c.layer
    | none => false

theorem pass_eq (L : Lib Pix) (s : St) (lay : Int) (frames : List (Int × Option (Frame Pix))) : ∀ k : Work Pix,
    (pass L s lay frames k).map Work.out = paint L s.outW s.outH (onLayer s lay frames) k.out ∧
    ∀ k', pass L s lay frames k = .ok k' → k'.left = k.left - countOn s (fun l => l = lay) frames := by
  induction frames with
  | nil =>
    intro k
    refine ⟨rfl, ?_⟩
    intro k' h
    simp only [pass, Res.ok.injEq] at h
    subst h
    simp [countOn]
  | cons x frames ih =>
    intro k
    obtain ⟨id, fr⟩ := x
    rw [pass]
    unfold onLayer countOn
    rw [List.filterMap_cons, List.countP_cons]
    cases hc : s.chans id with
    | none =>
      simp only [hc]
      have := ih k
      unfold onLayer countOn at this
      exact this
    | some c =>
      simp only [hc]
      by_cases hl : c.layer ≠ lay
      · rw [if_pos hl]
        have hd : decide (c.layer = lay) = false := by simp [hl]
        have := ih k
        unfold onLayer countOn at this
        cases fr with
        | none =>
          simp only [hd]
          exact this
        | some f =>
          simp only [hd, if_neg (fun hh : c.layer = lay ∧ c.enabled = true => hl hh.1)]
          exact this
      · rw [if_neg hl]
        have hl' : c.layer = lay := not_not.1 hl
        have hd : decide (c.layer = lay) = true := by simp [hl']
        cases fr with
        | none =>
          simp only [hd, if_true]
          have := ih { k with left := k.left - 1 }
          unfold onLayer countOn at this
          refine ⟨this.1, ?_⟩
          intro k' h
          have := this.2 k' h
          simp only at this
          rw [this]; push_cast; omega
        | some f =>
          simp only
          by_cases he : c.enabled = false
          · rw [if_pos he, if_neg (fun hh : c.layer = lay ∧ c.enabled = true => by rw [he] at hh; exact absurd hh.2 (by simp))]
            simp only [hd, if_true]
            have := ih { k with left := k.left - 1 }
            unfold onLayer countOn at this
            refine ⟨this.1, ?_⟩
            intro k' h
            have := this.2 k' h
            simp only at this
            rw [this]; push_cast; omega
          · have hpos : c.layer = lay ∧ c.enabled = true := ⟨hl', by simpa using he⟩
            rw [if_neg he, if_pos hpos]
            simp only
            rw [paint]
            by_cases hv : f.isVideo = false
            · rw [if_pos hv, if_pos hv]
              refine ⟨rfl, ?_⟩
              intro k' h; exact absurd h (by simp)
            · rw [if_neg hv, if_neg hv]
              show _ ∧ _
              have hk : k.out.1 = k.img := rfl
              rw [hk]
              cases hp : paste L s.outW s.outH c f k.img with
              | none =>
                refine ⟨rfl, ?_⟩
                intro k' h; exact absurd h (by simp)
              | some img =>
                simp only [hd, if_true]
                have := ih ⟨img, max f.pts k.ts, k.left - 1⟩
                unfold onLayer countOn at this
                refine ⟨this.1, ?_⟩
                intro k' h
                have := this.2 k' h
                simp only at this
                rw [this]; push_cast; omega

theorem count_split (s : St) (lay : Int) (frames : List (Int × Option (Frame Pix))) :
    countOn s (fun l => decide (lay ≤ l)) frames = countOn s (fun l => l = lay) frames + countOn s (fun l => decide (lay + 1 ≤ l)) frames := by
  unfold countOn
  induction frames with
  | nil => rfl
  | cons x frames ih =>
    simp only [List.countP_cons, ih]
    cases hc : s.chans x.1 with
    | none => simp
    | some c =>
      simp only [decide_eq_true_eq]
      by_cases h1 : c.layer = lay
      · rw [if_pos (by omega), if_pos h1, if_neg (by omega)]; omega
      · by_cases h2 : lay ≤ c.layer
        · rw [if_pos h2, if_neg h1, if_pos (by omega)]; omega
        · rw [if_neg h2, if_neg h1, if_neg (by omega)]; omega

theorem orderFrom_nil (s : St) (frames : List (Int × Option (Frame Pix))) (n : Nat) (lay : Int)
    (h : countOn s (fun l => decide (lay ≤ l)) frames = 0) : orderFrom s frames n lay = [] := by
  rw [List.eq_nil_iff_forall_not_mem]
  intro e he
  obtain ⟨h1, h2, h3, h4, h5⟩ := (mem_orderFrom s frames e n lay).1 he
  unfold countOn at h
  rw [List.countP_eq_zero] at h
  have := h _ h1
  simp only [h2, decide_eq_true_eq] at this
  exact this h4

theorem passes_eq (L : Lib Pix) (s : St) (frames : List (Int × Option (Frame Pix))) : ∀ (n : Nat) (lay : Int) (k : Work Pix),
    (countOn s (fun l => decide (lay ≤ l)) frames : Int) ≤ k.left →
    (passes L s frames n lay k).map Work.out = paint L s.outW s.outH (orderFrom s frames n lay) k.out := by
  intro n
  induction n with
  | zero => intro lay k _; rfl
  | succ n ih =>
    intro lay k hk
    rw [passes, orderFrom, paint_append]
    obtain ⟨h1, h2⟩ := pass_eq L s lay frames k
    rw [← h1]
    cases hp : pass L s lay frames k with
    | refused => rfl
    | abort => rfl
    | ok k' =>
      have hl := h2 k' hp
      have hs := count_split s lay frames
      simp only [Res.map, Res.bind]
      by_cases hz : k'.left ≤ 0
      · rw [if_pos hz, orderFrom_nil s frames n (lay + 1) (by omega)]
        rfl
      · rw [if_neg hz]
        exact ih (lay + 1) k' (by omega)

/-! ## Pixels -/

theorem paste_pixel (L : Lib Pix) (W H : Int) (e : Layer Pix) (img img' : Int → Int → Pix)
    (h : paste L W H e.ch e.frame img = some img') (i j : Int) :
    img' i j = if (e.rect W H).has i j then e.over L W H i j (img i j) else img i j := by
  unfold paste at h
  simp only at h
  split at h
  · exact absurd h (by simp)
  · split at h
    · exact absurd h (by simp)
    · simp only [Option.some.injEq] at h
      rw [← h]
      unfold Layer.over
      rw [pixel_fitted]
      rfl

theorem paint_pixel (L : Lib Pix) (W H : Int) (l : List (Layer Pix)) (i j : Int) : ∀ (k k' : (Int → Int → Pix) × Int),
    paint L W H l k = .ok k' →
    k'.1 i j = (l.filter fun e => (e.rect W H).has i j).foldl (fun under e => e.over L W H i j under) (k.1 i j) := by
  induction l with
  | nil => intro k k' h; simp only [paint, Res.ok.injEq] at h; subst h; rfl
  | cons e l ih =>
    intro k k' h
    rw [paint] at h
    split at h
    · exact absurd h (by simp)
    · cases hp : paste L W H e.ch e.frame k.1 with
      | none => rw [hp] at h; exact absurd h (by simp)
      | some img =>
        rw [hp] at h
        have := ih _ _ h
        rw [this, List.filter_cons]
        simp only
        rw [paste_pixel L W H e k.1 img hp i j]
        by_cases hh : (e.rect W H).has i j
        · simp [hh]
        · simp [hh]

theorem paint_ts (L : Lib Pix) (W H : Int) (l : List (Layer Pix)) : ∀ (k k' : (Int → Int → Pix) × Int),
    paint L W H l k = .ok k' → k'.2 = l.foldl (fun t e => max e.frame.pts t) k.2 := by
  induction l with
  | nil => intro k k' h; simp only [paint, Res.ok.injEq] at h; subst h; rfl
  | cons e l ih =>
    intro k k' h
    rw [paint] at h
    split at h
    · exact absurd h (by simp)
    · cases hp : paste L W H e.ch e.frame k.1 with
      | none => rw [hp] at h; exact absurd h (by simp)
      | some img => rw [hp] at h; exact ih _ _ h

/-- **C34.** A mixed picture shows at every place what is seen when the enabled channels that have a frame are painted once
each, lower layers first; its time is the latest of theirs (or the filter's own clock). -/
theorem mixed_picture (L : Lib Pix) (s s' : St) (frames : List (Int × Option (Frame Pix))) (o : Out Pix)
    (h : process L s frames = .ok (o, s')) :
    (∀ i j, o.pix i j = seen L (order s frames) s.outW s.outH i j) ∧ o.width = s.outW ∧ o.height = s.outH ∧
    o.length = 3 * s.outW * s.outH ∧ o.dts = o.pts ∧
    o.pts = (if s.frameTime ≤ 0 then (order s frames).foldl (fun t e => max e.frame.pts t) 0 else s.syncTs) ∧
    s'.chans = s.chans := by
  unfold process at h
  have hle : (countOn s (fun l => decide (0 ≤ l)) frames : Int) ≤ (frames.length : Int) := by
    unfold countOn; exact_mod_cast List.countP_le_length
  have hp := passes_eq L s frames s.maxCh 0 ⟨fun _ _ => L.black, 0, frames.length⟩ hle
  cases hk : passes L s frames s.maxCh 0 ⟨fun _ _ => L.black, 0, frames.length⟩ with
  | refused => rw [hk] at h; exact absurd h (by simp)
  | abort => rw [hk] at h; exact absurd h (by simp)
  | ok k =>
    rw [hk] at h hp
    simp only [Res.ok.injEq, Prod.mk.injEq] at h
    obtain ⟨h1, h2⟩ := h
    have hp' := hp.symm
    simp only [Res.map] at hp'
    refine ⟨?_, by rw [← h1], by rw [← h1], by rw [← h1], by rw [← h1], ?_, ?_⟩
    · intro i j
      rw [← h1]
      exact paint_pixel L s.outW s.outH _ i j _ _ hp'
    · rw [← h1]
      have := paint_ts L s.outW s.outH _ _ _ hp'
      have hk' : k.ts = (order s frames).foldl (fun t e => max e.frame.pts t) 0 := this
      simp only [hk']
    · rw [← h2]; split <;> rfl

/-- **C34, opaque channels.** Where only opaque channels lie, the last one painted is seen, and black where there is none. -/
theorem topmost_seen (L : Lib Pix) (l : List (Layer Pix)) (W H i j : Int)
    (h : ∀ e ∈ l, (e.rect W H).has i j → e.ch.opacity = 1) :
    seen L l W H i j = match (l.filter fun e => (e.rect W H).has i j).getLast? with
      | none => L.black
      | some e => e.pixel L W H i j := by
  unfold seen
  have h' : ∀ e ∈ l.filter (fun e => (e.rect W H).has i j), e.ch.opacity = 1 := by
    intro e he
    rw [List.mem_filter] at he
    exact h e he.1 (by simpa using he.2)
  generalize l.filter (fun e => (e.rect W H).has i j) = m at h'
  rcases List.eq_nil_or_concat m with hm | ⟨m', e, hm⟩
  · rw [hm]; rfl
  · rw [List.concat_eq_append] at hm
    subst hm
    rw [List.foldl_append, List.getLast?_append]
    simp only [List.foldl_cons, List.foldl_nil, List.getLast?_singleton, Option.some_or]
    rw [Layer.over, if_pos (h' e (by simp))]

/-- A round is refused only for a frame that is not a video frame. -/
theorem refused_only (L : Lib Pix) (s : St) (frames : List (Int × Option (Frame Pix))) (h : process L s frames = .refused) :
    ∃ e ∈ order s frames, e.frame.isVideo = false := by
  unfold process at h
  have hle : (countOn s (fun l => decide (0 ≤ l)) frames : Int) ≤ (frames.length : Int) := by
    unfold countOn; exact_mod_cast List.countP_le_length
  have hp := passes_eq L s frames s.maxCh 0 ⟨fun _ _ => L.black, 0, frames.length⟩ hle
  have hr : paint L s.outW s.outH (order s frames) (Work.out ⟨fun _ _ => L.black, 0, frames.length⟩) = .refused := by
    cases hk : passes L s frames s.maxCh 0 ⟨fun _ _ => L.black, 0, frames.length⟩ with
    | refused => rw [hk] at hp; exact hp.symm
    | abort => rw [hk] at h; exact absurd h (by simp)
    | ok k => rw [hk] at h; exact absurd h (by simp)
  have : ∀ (l : List (Layer Pix)) (k : (Int → Int → Pix) × Int), paint L s.outW s.outH l k = .refused →
      ∃ e ∈ l, e.frame.isVideo = false := by
    intro l
    induction l with
    | nil => intro k h; exact absurd h (by simp [paint])
    | cons e l ih =>
      intro k h
      rw [paint] at h
      by_cases hv : e.frame.isVideo = false
      · exact ⟨e, by simp, hv⟩
      · rw [if_neg hv] at h
        cases hp : paste L s.outW s.outH e.ch e.frame k.1 with
        | none => rw [hp] at h; exact absurd h (by simp)
        | some img =>
          rw [hp] at h
          obtain ⟨e', h1, h2⟩ := ih _ h
          exact ⟨e', List.mem_cons_of_mem _ h1, h2⟩
  exact this _ _ hr

/-! ## Configuration -/

/-- **C34, acceptance.** -/
theorem config_accepted_iff (s : St) (id : Int) (w h x y : ℚ) (layer : Int) (en : Bool) (op : ℚ) :
    ((configChannel s id w h x y layer en op).1 = true ↔
      (s.chans id).isSome ∧ 0 ≤ x ∧ 0 ≤ y ∧ 0 < w ∧ 0 < h ∧ 0 ≤ op ∧ op ≤ 1 ∧ 0 ≤ layer ∧ layer ≤ s.maxCh) ∧
    ((configChannel s id w h x y layer en op).1 = false → (configChannel s id w h x y layer en op).2 = s) ∧
    ((configChannel s id w h x y layer en op).1 = true →
      (configChannel s id w h x y layer en op).2.chans id = some ⟨w, h, x, y, layer, en, op⟩ ∧
      ∀ k, k ≠ id → (configChannel s id w h x y layer en op).2.chans k = s.chans k) := by
  unfold configChannel
  cases hc : s.chans id with
  | none => simp
  | some c =>
    simp only [Option.isSome_some, true_and]
    by_cases h1 : x < 0 ∨ y < 0 ∨ w ≤ 0 ∨ h ≤ 0 ∨ op < 0 ∨ op > 1
    · rw [if_pos h1]
      simp only [Bool.false_eq_true, false_iff, true_implies, false_implies, and_true, not_and]
      intro a b c d e f
      exfalso
      rcases h1 with h | h | h | h | h | h <;> linarith
    · rw [if_neg h1]
      simp only [not_or, not_lt, not_le] at h1
      obtain ⟨a, b, c, d, e, f⟩ := h1
      by_cases h2 : layer < 0 ∨ layer > s.maxCh
      · rw [if_pos h2]
        simp only [Bool.false_eq_true, false_iff, true_implies, false_implies, and_true, not_and]
        intro _ _ _ _ _ _ g
        omega
      · rw [if_neg h2]
        simp only [true_iff, Bool.true_eq_false, false_implies, true_implies, true_and]
        exact ⟨⟨a, b, c, d, e, f, by omega, by omega⟩, by simp, fun k hk => by simp [hk]⟩

/-- What commands a mixer gets. -/
inductive Cmd where
  | channel (id : Int) (w h x y : ℚ) (layer : Int) (enabled : Bool) (opacity : ℚ)
  | layout (w h fps : Int)
  | add (id : Int)
  | remove (id : Int)

def command (s : St) : Cmd → St
  | .channel id w h x y l e o => (configChannel s id w h x y l e o).2
  | .layout w h f => (configure s w h f).2
  | .add id => (addChannel s id).2
  | .remove id => (removeChannel s id).2

def commands (s : St) : List Cmd → St
  | [] => s
  | c :: l => commands (command s c) l

/-- A channel as configuration lets it be. -/
def Ch.Ok (c : Ch) (maxCh : Nat) : Prop :=
  0 ≤ c.x ∧ 0 ≤ c.y ∧ 0 < c.width ∧ 0 < c.height ∧ 0 ≤ c.opacity ∧ c.opacity ≤ 1 ∧ 0 ≤ c.layer ∧ c.layer ≤ maxCh

def St.Ok (s : St) : Prop :=
  (∀ id c, s.chans id = some c → c.Ok s.maxCh) ∧ 0 < s.outW ∧ s.outW ≤ MAXW ∧ 0 < s.outH ∧ s.outH ≤ MAXH

theorem command_ok (s : St) (c : Cmd) (h : s.Ok) : (command s c).Ok := by
  obtain ⟨h1, h2, h3, h4, h5⟩ := h
  cases c with
  | channel id w hh x y l e o =>
    show (configChannel s id w hh x y l e o).2.Ok
    have := config_accepted_iff s id w hh x y l e o
    obtain ⟨a, b, d⟩ := this
    cases hr : (configChannel s id w hh x y l e o).1 with
    | false => rw [b hr]; exact ⟨h1, h2, h3, h4, h5⟩
    | true =>
      have hm : (configChannel s id w hh x y l e o).2.maxCh = s.maxCh ∧ (configChannel s id w hh x y l e o).2.outW = s.outW ∧
          (configChannel s id w hh x y l e o).2.outH = s.outH := by
        unfold configChannel; split <;> [exact ⟨rfl, rfl, rfl⟩; (split <;> [exact ⟨rfl, rfl, rfl⟩; (split <;> exact ⟨rfl, rfl, rfl⟩)])]
      obtain ⟨d1, d2⟩ := d hr
      obtain ⟨_, a1, a2, a3, a4, a5, a6, a7, a8⟩ := a.1 hr
      refine ⟨?_, by rw [hm.2.1]; exact h2, by rw [hm.2.1]; exact h3, by rw [hm.2.2]; exact h4, by rw [hm.2.2]; exact h5⟩
      intro k c hc
      simp only [hm.1]
      by_cases hk : k = id
      · subst hk
        rw [d1, Option.some.injEq] at hc
        subst hc
        exact ⟨a1, a2, a3, a4, a5, a6, a7, a8⟩
      · rw [d2 k hk] at hc; exact h1 k c hc
  | layout w hh f =>
    show (configure s w hh f).2.Ok
    unfold configure
    split
    · exact ⟨h1, h2, h3, h4, h5⟩
    · rename_i hn
      exact ⟨h1, by show 0 < w; omega, by show w ≤ MAXW; omega, by show 0 < hh; omega, by show hh ≤ MAXH; omega⟩
  | add id =>
    show (addChannel s id).2.Ok
    unfold addChannel
    split
    · refine ⟨?_, h2, h3, h4, h5⟩
      intro k c hc
      simp only at hc
      by_cases hk : k = id
      · rw [if_pos hk, Option.some.injEq] at hc
        subst hc
        exact ⟨le_refl _, le_refl _, by show (0:ℚ) < 1; norm_num, by show (0:ℚ) < 1; norm_num, by show (0:ℚ) ≤ 1; norm_num, le_refl _,
          le_refl _, by show (0 : Int) ≤ _; simp⟩
      · rw [if_neg hk] at hc; exact h1 k c hc
    · exact ⟨h1, h2, h3, h4, h5⟩
  | remove id =>
    show (removeChannel s id).2.Ok
    unfold removeChannel
    split
    · exact ⟨h1, h2, h3, h4, h5⟩
    · refine ⟨?_, h2, h3, h4, h5⟩
      intro k c hc
      simp only at hc
      by_cases hk : k = id
      · rw [if_pos hk] at hc; exact absurd hc (by simp)
      · rw [if_neg hk] at hc; exact h1 k c hc

/-- **C34, C35: every command history leaves channels in range.** -/
theorem commands_ok (s : St) (l : List Cmd) (h : s.Ok) : (commands s l).Ok := by
  induction l generalizing s with
  | nil => exact h
  | cons c l ih => exact ih _ (command_ok s c h)

/-! ## Regions -/

theorem px_nonneg (f : ℚ) (n : Int) (hf : 0 ≤ f) (hn : 0 ≤ n) : 0 ≤ px f n :=
  Int.floor_nonneg.2 (mul_nonneg hf (by exact_mod_cast hn))

theorem px_le (f : ℚ) (n : Int) (hf : f ≤ 1) (hn : 0 ≤ n) : px f n ≤ n := by
  unfold px
  have : f * n ≤ n := by
    have hn' : (0 : ℚ) ≤ n := by exact_mod_cast hn
    nlinarith
  have h2 : ((⌊f * n⌋ : Int) : ℚ) ≤ n := le_trans (Int.floor_le _) this
  exact_mod_cast h2

/-- The clipped rectangle lies inside the picture exactly when its corner does. -/
theorem clip_inside (W H x y w h : Int) (hx : 0 ≤ x) (hy : 0 ≤ y) (hw : 0 ≤ w) (hh : 0 ≤ h) :
    (clip W H x y w h).inside W H ↔ x ≤ W ∧ y ≤ H := by
  unfold clip Rect.inside
  simp only
  constructor
  · rintro ⟨_, a, b, _, c, d⟩
    split at a <;> split at c <;> omega
  · rintro ⟨a, b⟩
    refine ⟨hx, ?_, ?_, hy, ?_, ?_⟩ <;> split <;> omega

/-- **C35, mixer.** For a channel as configuration lets it be, painting succeeds exactly when its corner falls in the picture
and its frame either already has the channel's size or the size is not empty. -/
theorem paste_succeeds_iff (L : Lib Pix) (W H : Int) (hW : 0 < W) (hH : 0 < H) (c : Ch) (m : Nat) (hc : c.Ok m) (f : Frame Pix)
    (img : Int → Int → Pix) :
    (paste L W H c f img).isSome ↔
      (px c.x W ≤ W ∧ px c.y H ≤ H) ∧ ((f.height = px c.height H ∧ f.width = px c.width W) ∨ (0 < px c.width W ∧ 0 < px c.height H)) := by
  obtain ⟨h1, h2, h3, h4, -, -, -, -⟩ := hc
  have a := px_nonneg c.x W h1 hW.le
  have b := px_nonneg c.y H h2 hH.le
  have d := px_nonneg c.width W h3.le hW.le
  have e := px_nonneg c.height H h4.le hH.le
  have key := clip_inside W H _ _ _ _ a b d e
  unfold paste
  simp only
  by_cases q1 : (f.height ≠ px c.height H ∨ f.width ≠ px c.width W) ∧ (px c.width W ≤ 0 ∨ px c.height H ≤ 0)
  · rw [if_pos q1]
    simp only [Option.isSome_none, Bool.false_eq_true, false_iff]
    rintro ⟨-, h | h⟩
    · rcases q1.1 with hh | hh
      · exact hh h.1
      · exact hh h.2
    · omega
  · rw [if_neg q1]
    have q2 : (f.height = px c.height H ∧ f.width = px c.width W) ∨ (0 < px c.width W ∧ 0 < px c.height H) := by omega
    by_cases q3 : px c.x W ≤ W ∧ px c.y H ≤ H
    · rw [if_neg]
      · simp only [Option.isSome_some, true_iff]; exact ⟨q3, q2⟩
      · rw [not_or, not_not, not_not]
        refine ⟨key.2 q3, ?_⟩
        unfold clip Rect.inside
        simp only
        refine ⟨le_refl _, ?_, ?_, le_refl _, ?_, ?_⟩ <;> split <;> omega
    · rw [if_pos (Or.inl (fun hh => q3 (key.1 hh)))]
      simp only [Option.isSome_none, Bool.false_eq_true, false_iff]
      exact fun hh => q3 hh.1

/-- **C35, mixer.** What is painted lies inside the mixed picture. -/
theorem painted_inside (L : Lib Pix) (W H : Int) (e : Layer Pix) (img img' : Int → Int → Pix)
    (h : paste L W H e.ch e.frame img = some img') (i j : Int) (hne : img' i j ≠ img i j) : 0 ≤ i ∧ i < W ∧ 0 ≤ j ∧ j < H := by
  have hp := paste_pixel L W H e img img' h i j
  by_cases hh : (e.rect W H).has i j
  · unfold paste at h
    simp only at h
    split at h
    · exact absurd h (by simp)
    · split at h
      · exact absurd h (by simp)
      · rename_i hn
        rw [not_or, not_not, not_not] at hn
        have hr : (e.rect W H).inside W H := hn.1
        unfold Rect.has at hh
        unfold Rect.inside at hr
        omega
  · rw [if_neg hh] at hp; exact absurd hp hne

/-- **C35, mixer.** Channels placed inside the picture and at least one pixel large never stop the mixer. -/
theorem never_aborts (L : Lib Pix) (s : St) (hs : s.Ok) (frames : List (Int × Option (Frame Pix)))
    (h : ∀ id c, s.chans id = some c → c.x ≤ 1 ∧ c.y ≤ 1 ∧ 1 ≤ c.width * s.outW ∧ 1 ≤ c.height * s.outH) :
    process L s frames ≠ .abort := by
  have hpaint : ∀ (l : List (Layer Pix)) (k : (Int → Int → Pix) × Int), (∀ e ∈ l, s.chans e.id = some e.ch) →
      paint L s.outW s.outH l k ≠ .abort := by
    intro l
    induction l with
    | nil => intro k _ hh; exact absurd hh (by simp [paint])
    | cons e l ih =>
      intro k hm
      rw [paint]
      split
      · simp
      · obtain ⟨a, b, c, d⟩ := h e.id e.ch (hm e (by simp))
        have hok := hs.1 e.id e.ch (hm e (by simp))
        have w1 : 0 < px e.ch.width s.outW := by
          have : (1 : Int) ≤ ⌊e.ch.width * s.outW⌋ := Int.le_floor.2 (by exact_mod_cast c)
          unfold px; omega
        have w2 : 0 < px e.ch.height s.outH := by
          have : (1 : Int) ≤ ⌊e.ch.height * s.outH⌋ := Int.le_floor.2 (by exact_mod_cast d)
          unfold px; omega
        have := (paste_succeeds_iff L s.outW s.outH hs.2.1 hs.2.2.2.1 e.ch s.maxCh hok e.frame k.1).2
          ⟨⟨px_le _ _ a hs.2.1.le, px_le _ _ b hs.2.2.2.1.le⟩, Or.inr ⟨w1, w2⟩⟩
        obtain ⟨img, himg⟩ := Option.isSome_iff_exists.1 this
        rw [himg]
        exact ih _ (fun x hx => hm x (List.mem_cons_of_mem _ hx))
  intro hab
  unfold process at hab
  have hle : (countOn s (fun l => decide (0 ≤ l)) frames : Int) ≤ (frames.length : Int) := by
    unfold countOn; exact_mod_cast List.countP_le_length
  have hp := passes_eq L s frames s.maxCh 0 ⟨fun _ _ => L.black, 0, frames.length⟩ hle
  cases hk : passes L s frames s.maxCh 0 ⟨fun _ _ => L.black, 0, frames.length⟩ with
  | refused => rw [hk] at hab; exact absurd hab (by simp)
  | ok k => rw [hk] at hab; exact absurd hab (by simp)
  | abort =>
    rw [hk] at hp
    exact hpaint (orderFrom s frames s.maxCh 0) _ (fun e he => ((mem_orderFrom s frames e s.maxCh 0).1 he).2.1) hp.symm

/-! ## Splitter -/

inductive CropCmd where
  | config (id w h x y degree : Int)
  | add (id : Int)
  | remove (id : Int)

def cropCommand (s : Int → Option Crop) : CropCmd → (Int → Option Crop)
  | .config id w h x y d => (configCrop s id w h x y d).2
  | .add id => (addCrop s id).2
  | .remove id => (removeCrop s id).2

def cropCommands (s : Int → Option Crop) : List CropCmd → (Int → Option Crop)
  | [] => s
  | c :: l => cropCommands (cropCommand s c) l

/-- Configured by an accepted command. -/
def Crop.Set (c : Crop) : Prop := 0 ≤ c.x ∧ 0 ≤ c.y ∧ 0 < c.w ∧ 0 < c.h

theorem crop_reachable (l : List CropCmd) (id : Int) (c : Crop) (h : cropCommands (fun _ => none) l id = some c) :
    c = Crop.default ∨ c.Set := by
  have : ∀ (l : List CropCmd) (s : Int → Option Crop), (∀ id c, s id = some c → c = Crop.default ∨ c.Set) →
      ∀ id c, cropCommands s l id = some c → c = Crop.default ∨ c.Set := by
    intro l
    induction l with
    | nil => intro s h; exact h
    | cons x l ih =>
      intro s h
      apply ih
      intro k c hc
      cases x with
      | config i w hh xx y d =>
        change (configCrop s i w hh xx y d).2 k = some c at hc
        unfold configCrop at hc
        split at hc
        · exact h k c hc
        · split at hc
          · exact h k c hc
          · rename_i hn
            simp only at hc
            by_cases hk : k = i
            · rw [if_pos hk, Option.some.injEq] at hc
              subst hc
              refine Or.inr ⟨?_, ?_, ?_, ?_⟩ <;> simp only <;> omega
            · rw [if_neg hk] at hc; exact h k c hc
      | add i =>
        change (addCrop s i).2 k = some c at hc
        unfold addCrop at hc
        split at hc
        · simp only at hc
          by_cases hk : k = i
          · rw [if_pos hk, Option.some.injEq] at hc; exact Or.inl hc.symm
          · rw [if_neg hk] at hc; exact h k c hc
        · exact h k c hc
      | remove i =>
        change (removeCrop s i).2 k = some c at hc
        unfold removeCrop at hc
        split at hc
        · exact h k c hc
        · simp only at hc
          by_cases hk : k = i
          · rw [if_pos hk] at hc; exact absurd hc (by simp)
          · rw [if_neg hk] at hc; exact h k c hc
  exact this l _ (by intro id c h; exact absurd h (by simp)) id c h

/-- **C35, splitter.** After any commands, an output produces a piece exactly when its crop was configured and lies inside the
input; then the piece is that region of the input; otherwise nothing is produced. -/
theorem splitter_cuts (l : List CropCmd) (id : Int) (c : Crop) (h : cropCommands (fun _ => none) l id = some c) (f : Frame Pix)
    (hf : 0 ≤ f.width ∧ 0 ≤ f.height) (hov : c.x + c.w < 2 ^ 31 ∧ c.y + c.h < 2 ^ 31) :
    (c.Set ∧ c.x + c.w ≤ f.width ∧ c.y + c.h ≤ f.height →
      ∃ p, cut c f = .piece p ∧ p.w = c.w ∧ p.h = c.h ∧ (⟨c.x, c.y, c.w, c.h⟩ : Rect).inside f.width f.height ∧
        ∀ i j, p.pix i j = f.pix (c.x + i) (c.y + j)) ∧
    (¬(c.Set ∧ c.x + c.w ≤ f.width ∧ c.y + c.h ≤ f.height) → cut c f = .nothing) := by
  have hreach := crop_reachable l id c h
  unfold cut
  rw [if_neg (not_not.2 hov)]
  constructor
  · rintro ⟨⟨a1, a2, a3, a4⟩, b1, b2⟩
    have hin : (⟨c.x, c.y, c.w, c.h⟩ : Rect).inside f.width f.height := ⟨a1, a3.le, b1, a2, a4.le, b2⟩
    rw [if_pos ⟨Or.inl a1, b1, b2⟩, if_pos hin]
    exact ⟨_, rfl, rfl, rfl, hin, fun _ _ => rfl⟩
  · intro hn
    rcases hreach with rfl | hset
    · rw [if_neg (by unfold Crop.default; simp)]
    · rw [if_neg (fun hh => hn ⟨hset, hh.2⟩)]

/-! ### Cases and recorded exceptions -/

/-- Numbers as pixels; weights ignored. -/
def toy : Lib Nat := ⟨0, fun _ _ p _ _ i j => p i j, fun _ a _ => a⟩

/-- Two channels over each other. -/
def twoChannels : St :=
  ⟨fun k => if k = 1 then some ⟨1, 1, 0, 0, 1, true, 1⟩ else if k = 2 then some ⟨1 / 2, 1 / 2, 1 / 4, 1 / 4, 0, true, 1⟩ else none,
    16, 8, 3, 0, 0⟩

def dot (v : Nat) : Frame Nat := ⟨16, 8, 5, true, fun _ _ => v⟩

example : twoChannels.Ok := by
  refine ⟨?_, by decide, by decide, by decide, by decide⟩
  intro id c h
  simp only [twoChannels] at h
  split at h
  · simp only [Option.some.injEq] at h; subst h; unfold Ch.Ok twoChannels; norm_num
  · split at h
    · simp only [Option.some.injEq] at h; subst h; unfold Ch.Ok twoChannels; norm_num
    · exact absurd h (by simp)

/-- The channel with the higher layer number is painted last although its channel number is lower. -/
example : (order twoChannels [(1, some (dot 7)), (2, some (dot 9)), (3, some (dot 4))]).map (·.id) = [2, 1] := by
  simp [order, orderFrom, onLayer, twoChannels, List.filterMap_cons]

/-- A channel on the top layer number is accepted and never painted. -/
theorem top_layer_never_painted (s : St) (frames : List (Int × Option (Frame Pix))) (id : Int) (c : Ch) (h : s.chans id = some c)
    (ht : c.layer = s.maxCh) : ∀ e ∈ order s frames, e.id ≠ id := by
  intro e he hid
  obtain ⟨-, h2, -, -, h5⟩ := (mem_order s frames e).1 he
  rw [hid, h, Option.some.injEq] at h2
  rw [← h2, ht] at h5
  omega

theorem top_layer_accepted :
    (configChannel twoChannels 1 1 1 0 0 3 true 1).1 = true := by
  rw [(config_accepted_iff _ _ _ _ _ _ _ _ _).1]
  simp [twoChannels]

/-- A corner outside the picture is accepted by the configuration and makes OpenCV throw when the channel is painted. -/
theorem corner_outside_aborts :
    (configChannel twoChannels 1 1 1 (3 / 2) 0 0 true 1).1 = true ∧
    paste toy 16 8 ⟨1, 1, 3 / 2, 0, 0, true, 1⟩ (dot 1) (fun _ _ => 0) = none := by
  constructor
  · rw [(config_accepted_iff _ _ _ _ _ _ _ _ _).1]
    simp [twoChannels]; norm_num
  · have h := paste_succeeds_iff toy 16 8 (by decide) (by decide) ⟨1, 1, 3 / 2, 0, 0, true, 1⟩ 3 (by unfold Ch.Ok; norm_num) (dot 1)
      (fun _ _ => 0)
    have hx : px (3 / 2) 16 = 24 := by unfold px; norm_num
    rw [← Option.not_isSome_iff_eq_none, h]
    simp only [hx]
    omega

/-- So does a size below one pixel. -/
theorem tiny_size_aborts :
    (configChannel twoChannels 1 (1 / 100) 1 0 0 0 true 1).1 = true ∧
    paste toy 16 8 ⟨1 / 100, 1, 0, 0, 0, true, 1⟩ (dot 1) (fun _ _ => 0) = none := by
  constructor
  · rw [(config_accepted_iff _ _ _ _ _ _ _ _ _).1]
    simp [twoChannels]
  · have h := paste_succeeds_iff toy 16 8 (by decide) (by decide) ⟨1 / 100, 1, 0, 0, 0, true, 1⟩ 3 (by unfold Ch.Ok; norm_num) (dot 1)
      (fun _ _ => 0)
    have hx : px (1 / 100) 16 = 0 := by unfold px; norm_num
    rw [← Option.not_isSome_iff_eq_none, h]
    simp only [hx, dot]
    omega

/-- The length set for a piece counts pixels, not the three bytes of each. -/
theorem piece_length_is_pixels (c : Crop) (f : Frame Pix) (p : Piece Pix) (h : cut c f = .piece p) : p.length = p.w * p.h := by
  unfold cut at h
  split at h
  · exact absurd h (by simp)
  · split at h
    · split at h
      · simp only [Cut.piece.injEq] at h; rw [← h]
      · exact absurd h (by simp)
    · exact absurd h (by simp)

/-- Huge crops overflow the check. -/
theorem crop_sum_overflows : cut ⟨2 ^ 31 - 1, 1, 1, 0, 0⟩ (dot 1) = .abort := by
  unfold cut; rw [if_pos (by decide)]

example : cropCommands (fun _ => none) [.add 1, .config 1 4 2 3 1 0] 1 = some ⟨4, 2, 3, 1, 0⟩ := by decide

/-- **C35.** A new input has a channel of the full size at the corner, on the lowest layer, opaque and not shown; an input that has one is
refused, and one that goes takes its channel with it. -/
theorem channel_comes_and_goes (s : St) (id : Int) :
    ((addChannel s id).1 = true ↔ s.chans id = none) ∧
    ((addChannel s id).1 = true → ∀ k, (addChannel s id).2.chans k =
      if k = id then some { width := 1, height := 1, x := 0, y := 0, layer := 0, enabled := false, opacity := 1 } else s.chans k) ∧
    ((addChannel s id).1 = false → (addChannel s id).2 = s) ∧
    ((removeChannel s id).1 = true ↔ s.chans id ≠ none) ∧
    (∀ k, (removeChannel s id).2.chans k = if k = id then none else s.chans k) ∧
    ((removeChannel s id).1 = false → (removeChannel s id).2 = s) := by
  unfold addChannel removeChannel
  cases h : s.chans id with
  | none =>
    refine ⟨by simp, fun _ k => rfl, by simp, by simp, fun k => ?_, fun _ => rfl⟩
    by_cases hk : k = id
    · rw [if_pos hk, hk]; exact h
    · rw [if_neg hk]
  | some c => exact ⟨by simp, by simp, fun _ => rfl, by simp, fun k => rfl, by simp⟩

example : (addChannel ⟨fun _ => none, 1920, 1080, 8, 0, 0⟩ 3).1 = true ∧ (removeChannel (addChannel ⟨fun _ => none, 1920, 1080, 8, 0, 0⟩ 3).2 3).1 = true ∧
    (removeChannel ⟨fun _ => none, 1920, 1080, 8, 0, 0⟩ 3).1 = false := ⟨rfl, rfl, rfl⟩

/-- **C35.** An output of the splitter can be added once: a second one with its number is refused and changes nothing. -/
theorem crop_added_once (s : Int → Option Crop) (id : Int) :
    ((addCrop s id).1 = true ↔ s id = none) ∧ ((addCrop s id).1 = false → (addCrop s id).2 = s) ∧
    ((addCrop s id).1 = true → ∀ k, (addCrop s id).2 k = if k = id then some ⟨0, 0, -1, -1, 0⟩ else s k) := by
  unfold addCrop
  cases h : s id <;> simp [Crop.default]

example : (addCrop (fun _ => none) 3).1 = true ∧ (addCrop (addCrop (fun _ => none) 3).2 3).1 = false := ⟨rfl, rfl⟩

/-- **C34.** With a frame rate set, the mixed picture is stamped with the mixer's own time, which mixing leaves alone; without one,
with the latest time of the pictures mixed, which the mixer takes over. -/
theorem mixed_time (L : Lib Pix) (s s' : St) (frames : List (Int × Option (Frame Pix))) (o : Out Pix)
    (h : process L s frames = .ok (o, s')) :
    o.dts = o.pts ∧ o.pts = s'.syncTs ∧ (0 < s.frameTime → s' = s) := by
  unfold process at h
  split at h
  · simp only [Res.ok.injEq, Prod.mk.injEq] at h
    obtain ⟨rfl, rfl⟩ := h
    by_cases hf : s.frameTime ≤ 0
    · simp [hf]
    · simp [hf]
  · exact nomatch h
  · exact nomatch h

/-- Making and deleting a crop succeeds exactly if there is none and one, respectively. -/
theorem crop_results (s : Int → Option Crop) (id : Int) : (addCrop s id).1 = (s id).isNone ∧ (removeCrop s id).1 = (s id).isSome := by
  unfold addCrop removeCrop
  cases s id <;> exact ⟨rfl, rfl⟩

end Lms.VideoMixer
