import Verif.RecordAudio.Model
import Mathlib.Data.List.Forall2

/-!
# C86: a recorded audio stream plays back

Whole way of an AAC stream into the files of the DASH filter and back.
-/

namespace Lms.RecordAudio

open Isoff (demux RunSample)

/-! ## Specification -/

/-- Whole ticks of 1/rate s since the origin, rounded towards it, as a number of 32 bits. -/
def tick (rate : Nat) (off micros : Int) : Nat := (((micros - off) * rate).tdiv 1000000 % 2 ^ 32).toNat

instance : DecidablePred Adts.ValidHeader := fun d => by unfold Adts.ValidHeader; infer_instance

/-- A frame that can be heard: a valid header with something behind it, and samples. -/
def Sound.good (f : Sound) : Bool := decide (Adts.ValidHeader f.data ∧ 7 < f.data.length ∧ 0 < f.samples)

/-- The coded sound of a frame. -/
def Sound.raw (f : Sound) : Bytes := f.data.drop 7

/-- The frames among what happens, without those that came while the initialisation file could not be written. -/
def sounds : List In → List Sound
  | [] => []
  | .frame f true :: l => f :: sounds l
  | .frame _ false :: l => sounds l
  | .cut :: l => sounds l

/-- The good frames between the cuts, given the ones since the last cut: the groups that are complete and the frames after the last
cut.  Nothing is made of a cut that has no frame before it. -/
def between : List Sound → List In → List (List Sound) × List Sound
  | acc, [] => ([], acc)
  | acc, .frame f w :: l => between (if w && f.good then acc ++ [f] else acc) l
  | acc, .cut :: l => ((if acc = [] then [] else [acc]) ++ (between [] l).1, (between [] l).2)

/-- How long frames last, in samples. -/
def span (fs : List Sound) : Nat := (fs.map Sound.samples).sum

/-- What a player finds in a segment made of the frames `fs`: exactly their coded sound, one sample for each frame, each lasting as
long as the frame has samples; the segment starts at the time of the first and is as long as all of them. -/
def Plays (rate : Nat) (off : Int) (s : Dash.Seg) (fs : List Sound) : Prop :=
  ∃ a l d, fs = a :: l ∧ demux s.bytes = some d ∧ d.after = [] ∧
    d.samples.map (fun x => (x.2, x.1.duration)) = fs.map (fun f => (f.raw, some f.samples)) ∧
    s.ts = tick rate off a.pts ∧ d.base = s.ts ∧ s.dur = span fs % 2 ^ 32

/-- A group that is long enough, and was not before its last frame (in numbers of 32 bits). -/
def Due (target : Nat) (g : List Sound) : Prop :=
  target ≤ span g % 2 ^ 32 ∧ ∀ p f q, g = p ++ f :: q → p ≠ [] → span p % 2 ^ 32 < target

/-- A stream of one rate. -/
def Uniform (rate : Nat) (l : List In) : Prop :=
  ∀ f w, .frame f w ∈ l → f.rate = rate ∧ f.samples < 2 ^ 32

/-! ## Refinement -/

/-- The same as a number of 64 bits. -/
def at64 (rate : Nat) (off m : Int) : Nat := (((m - off) * rate).tdiv 1000000 % 2 ^ 64).toNat

theorem at64_tick (rate : Nat) (off m : Int) : at64 rate off m % 2 ^ 32 = tick rate off m := by
  unfold at64 tick
  generalize ((m - off) * rate).tdiv 1000000 = x
  omega

theorem ticks_at {rate : Nat} {off m : Int} {p : Nat} (h : ticks rate off m = .ok p) : p = at64 rate off m := by
  unfold ticks at h
  simp only at h
  split at h
  · cases h
  · cases h; rfl

/-- The frame as the segmenter gets it. -/
def frm (rate : Nat) (off : Int) (f : Sound) : Dash.Frm := ⟨f.raw, at64 rate off f.pts, at64 rate off f.pts, true⟩

/-- What the segmenter is told of an event. -/
def op (rate : Nat) (off : Int) (alone : Bool) : In → Dash.AOp
  | .cut => .force
  | .frame f w =>
    if Adts.ValidHeader f.data ∧ w = true then (if alone then .frame (frm rate off f) f.samples else .append (frm rate off f) f.samples)
    else .append ⟨[], 0, 0, true⟩ 0

theorem setup_rel {s : Dash.State} {t : Dash.ASpec} {T : Nat} (secs : Nat) (f : Sound) (hT : T = secs * f.rate % 2 ^ 32)
    (h : Dash.ARel { s with target := T } t) : Dash.ARel (setup secs s f) t := by
  obtain ⟨h1, h2, h3, h4, h5, h6, h7, h8, h9⟩ := h
  exact ⟨h1, h2, h3, h4, h5, h6, by rw [← h7]; exact hT.symm, h8, h9⟩

theorem init_rel {cap : Nat} {a a' : Adts.State} {s s' : Dash.State} {t : Dash.ASpec} {o : Option Bytes} (h : Dash.ARel s t)
    (he : makeInit cap a s = .ok (a', s', o)) : Dash.ARel s' t ∧ s'.target = s.target ∧ (a.extra ≠ [] → a'.extra = [] ∧ o.isSome = true) := by
  unfold makeInit Adts.takeInit at he
  by_cases hx : a.extra = []
  · rw [if_pos hx] at he
    cases he
    exact ⟨h, rfl, fun h => absurd hx h⟩
  · rw [if_neg hx] at he
    simp only at he
    cases hg : Isoff.initGenerator cap s.ctx a.extra with
    | ub => rw [hg] at he; cases he
    | hang => rw [hg] at he; cases he
    | ok g =>
      rw [hg] at he
      simp only [Outcome.bind_ok] at he
      unfold Isoff.initGenerator Isoff.store at hg
      rw [if_neg (by have := List.length_pos_iff.2 hx; omega)] at hg
      simp only at hg
      split at hg
      · cases hg
        cases he
        obtain ⟨h1, h2, h3, h4, h5, h6, h7, h8, h9⟩ := h
        exact ⟨⟨h1, h2, h3, h4, h5, h6, h7, h8, h9⟩, rfl, fun _ => ⟨rfl, rfl⟩⟩
      · cases hg

theorem update_cases (a : Adts.State) (ha : a.extra = []) (d : Bytes) :
    (Adts.ValidHeader d ∧ (Adts.update a d).2 = true ∧ (Adts.update a d).1.extra ≠ []) ∨
    (¬ Adts.ValidHeader d ∧ (Adts.update a d).2 = false ∧ (Adts.update a d).1 = a) := by
  have h := (Adts.config_of_header a ha [] d).1
  simp only [runSpec] at h
  by_cases hv : Adts.ValidHeader d
  · refine .inl ⟨hv, h.2 hv, ?_⟩
    have hu := h.2 hv
    unfold Adts.update at hu ⊢
    split
    · split
      · rename_i h1; simp only [h1] at hu; simp at hu
      · split
        · rename_i h2; exact h2.2.2.2
        · simp [Adts.configBytes]
    · simp at hu
  · have hu : (Adts.update a d).2 = false := by
      cases hb : (Adts.update a d).2 with
      | true => exact absurd (h.1 hb) hv
      | false => rfl
    refine .inr ⟨hv, hu, ?_⟩
    unfold Adts.update at hu ⊢
    split
    · split
      · rfl
      · rename_i h1
        split
        · rfl
        · rename_i h2; simp only [if_neg h1, if_neg h2] at hu; simp at hu
    · rfl

theorem close_target {cap : Nat} {s s' : Dash.State} {o : Option Dash.Seg} (T : Nat) (h : Dash.close cap s = .ok (s', o)) :
    Dash.close cap { s with target := T } = .ok ({ s' with target := T }, o) := by
  unfold Dash.close at h ⊢
  show (Isoff.segmentGenerator cap s.ctx).bind _ = _
  cases hg : Isoff.segmentGenerator cap s.ctx with
  | ub => rw [hg] at h; cases h
  | hang => rw [hg] at h; cases h
  | ok g =>
    rw [hg] at h
    cases g with
    | err e => cases h; rfl
    | out c b => cases h; rfl

theorem step_target (t : Dash.ASpec) (o : Dash.AOp) : (t.step o).1.target = t.target := by
  have hadd : ∀ (u : Dash.ASpec) (f : Dash.Frm) (d : Nat), (u.add f d).target = u.target := by
    intro u f d
    unfold Dash.ASpec.add
    split <;> rfl
  have hclose : t.close.1.target = t.target := by unfold Dash.ASpec.close; split <;> rfl
  cases o with
  | force => exact hclose
  | append f d => exact hadd _ _ _
  | frame f d =>
    simp only [Dash.ASpec.step, hadd]
    split
    · exact hclose
    · rfl

/-- The input against the rule. -/
structure Rel (rate secs : Nat) (r : State) (t : Dash.ASpec) : Prop where
  seg : Dash.ARel { r.seg with target := secs * rate % 2 ^ 32 } t
  target : t.target = secs * rate % 2 ^ 32
  extra : r.adts.extra = []
  secs : r.secs = secs

theorem step_refines {cap : Nat} (hcap : cap < 2 ^ 32) {rate secs : Nat} {off : Int} {alone : Bool} {r r' : State} {t : Dash.ASpec}
    {i : In} {o : Out} (hr : Rel rate secs r t) (hu : Uniform rate [i]) (he : step cap off alone r i = .ok (r', o)) :
    Rel rate secs r' (t.step (op rate off alone i)).1 ∧ Dash.AMatches o.seg (t.step (op rate off alone i)).2 ∧
      (∀ f w, i = .frame f w → (o.init.isSome = true ↔ Adts.ValidHeader f.data ∧ w = true)) := by
  cases i with
  | cut =>
    simp only [step, Dash.audioStep] at he
    cases hc : Dash.close cap r.seg with
    | ub => rw [hc] at he; cases he
    | hang => rw [hc] at he; cases he
    | ok v =>
      rw [hc] at he
      simp only [Outcome.bind_ok] at he
      cases he
      obtain ⟨g1, g2⟩ := Dash.aclose_refines hcap hr.seg (close_target _ hc)
      exact ⟨⟨g1, (step_target t .force).trans hr.target, hr.extra, hr.secs⟩, g2, (fun f w h => nomatch h)⟩
  | frame f w =>
    obtain ⟨u1, u2⟩ := hu f w (by simp)
    subst u1
    have hs := setup_rel r.secs f (by rw [hr.secs]) hr.seg
    have es : t.step (.append ⟨[], 0, 0, true⟩ 0) = (t, none) := by
      simp [Dash.ASpec.step, Dash.ASpec.add]
    simp only [step] at he
    rcases update_cases r.adts hr.extra f.data with ⟨hv, e1, e2⟩ | ⟨hv, e1, e2⟩
    · rw [e1] at he
      simp only [Bool.true_eq_false, if_false] at he
      cases hm : makeInit cap (Adts.update r.adts f.data).1 (setup r.secs r.seg f) with
      | ub => rw [hm] at he; cases he
      | hang => rw [hm] at he; cases he
      | ok q =>
        obtain ⟨qa, qs, qo⟩ := q
        rw [hm] at he
        obtain ⟨i1, i2, i3⟩ := init_rel hs hm
        obtain ⟨i3, i4⟩ := i3 e2
        cases w with
        | false =>
          simp only [Outcome.bind_ok, i4, and_self, if_true] at he
          cases he
          have eo : op f.rate off alone (.frame f false) = .append ⟨[], 0, 0, true⟩ 0 := by
            simp [op]
          rw [eo, es]
          refine ⟨⟨?_, hr.target, i3, hr.secs⟩, trivial, ?_⟩
          · obtain ⟨h1, h2, h3, h4, h5, h6, h7, h8, h9⟩ := i1
            exact ⟨h1, h2, h3, h4, h5, h6, hr.target.symm, h8, h9⟩
          · intro f' w' h
            cases h
            simp
        | true =>
          simp only [Outcome.bind_ok, Bool.true_eq_false, and_false, if_false] at he
          cases hp : ticks f.rate off f.pts with
          | ub => rw [hp] at he; cases he
          | hang => rw [hp] at he; cases he
          | ok p =>
            rw [hp] at he
            simp only [Outcome.bind_ok] at he
            have ef : (⟨(Adts.samplePart f.data).1, p, p, true⟩ : Dash.Frm) = frm f.rate off f := by
              rw [ticks_at hp]; rfl
            rw [ef] at he
            have eo : (if alone = true then Dash.AOp.frame (frm f.rate off f) f.samples else .append (frm f.rate off f) f.samples) =
                op f.rate off alone (.frame f true) := by
              simp [op, hv]
            rw [eo] at he
            cases hst : Dash.audioStep cap qs (op f.rate off alone (.frame f true)) with
            | ub => rw [hst] at he; cases he
            | hang => rw [hst] at he; cases he
            | ok v =>
              rw [hst] at he
              simp only [Outcome.bind_ok] at he
              cases he
              have hval : (op f.rate off alone (.frame f true)).Valid := by
                rw [← eo]; cases alone <;> exact u2
              obtain ⟨g1, g2⟩ := Dash.astep_refines hcap i1 hval hst
              have et : v.1.target = secs * f.rate % 2 ^ 32 := g1.target.trans ((step_target t _).trans hr.target)
              refine ⟨⟨?_, (step_target t _).trans hr.target, i3, hr.secs⟩, g2, ?_⟩
              · obtain ⟨h1, h2, h3, h4, h5, h6, h7, h8, h9⟩ := g1
                exact ⟨h1, h2, h3, h4, h5, h6, et.symm.trans h7, h8, h9⟩
              · intro f' w' h
                cases h
                exact ⟨fun _ => ⟨hv, rfl⟩, fun _ => i4⟩
    · rw [e1, if_pos rfl] at he
      cases he
      have eo : op f.rate off alone (.frame f w) = .append ⟨[], 0, 0, true⟩ 0 := by
        simp only [op, if_neg (fun h : Adts.ValidHeader f.data ∧ w = true => hv h.1)]
      rw [eo, es]
      refine ⟨⟨?_, hr.target, ?_, hr.secs⟩, trivial, ?_⟩
      · obtain ⟨h1, h2, h3, h4, h5, h6, h7, h8, h9⟩ := hr.seg
        exact ⟨h1, h2, h3, h4, h5, h6, h7, h8, h9⟩
      · rw [e2]; exact hr.extra
      · intro f' w' h
        cases h
        exact ⟨fun h => by simp at h, fun h => absurd h.1 hv⟩

theorem run_refines {cap : Nat} (hcap : cap < 2 ^ 32) {rate secs : Nat} {off : Int} {alone : Bool} (l : List In) {r r' : State}
    {t : Dash.ASpec} {outs : List Out} (hr : Rel rate secs r t) (hu : Uniform rate l)
    (he : runOps (step cap off alone) r l = .ok (r', outs)) :
    Rel rate secs r' (t.run (l.map (op rate off alone))).1 ∧
      List.Forall₂ Dash.AFaithful (outs.filterMap Out.seg) ((t.run (l.map (op rate off alone))).2.filterMap id) := by
  induction l generalizing r t outs with
  | nil =>
    simp [runOps] at he
    obtain ⟨rfl, rfl⟩ := he
    exact ⟨hr, by simp [Dash.ASpec.run]⟩
  | cons i l ih =>
    obtain ⟨r1, o, outs', h1, h2, rfl⟩ := runOps_cons_ok he
    obtain ⟨e1, e2, _⟩ := step_refines hcap hr (fun f w hj => hu f w (by simp at hj; simp [hj])) h1
    obtain ⟨g1, g2⟩ := ih e1 (fun f w hj => hu f w (List.mem_cons_of_mem _ hj)) h2
    refine ⟨g1, ?_⟩
    simp only [List.map_cons, Dash.ASpec.run, List.filterMap_cons, id]
    cases ho : o.seg with
    | none =>
      cases hs : (t.step (op rate off alone i)).2 with
      | none => exact g2
      | some c => rw [ho, hs] at e2; exact e2.elim
    | some s =>
      cases hs : (t.step (op rate off alone i)).2 with
      | none => rw [ho, hs] at e2; exact e2.elim
      | some c => rw [ho, hs] at e2; exact .cons e2 g2

/-! ## What a player finds -/

/-- The frame in the specification of the segmenter. -/
def toA (rate : Nat) (off : Int) (f : Sound) : Dash.AFrm := ⟨f.raw, f.samples, at64 rate off f.pts⟩

theorem raw_nil (f : Sound) : f.raw = [] ↔ f.data.length ≤ 7 := by
  unfold Sound.raw; exact List.drop_eq_nil_iff

/-- What one event adds to the group. -/
def adds : In → List Sound
  | .frame f w => if w && f.good then [f] else []
  | .cut => []

theorem adds_op (rate : Nat) (off : Int) (alone : Bool) (i : In) (l : List Dash.AOp) :
    Dash.accepted (op rate off alone i :: l) = (adds i).map (toA rate off) ++ Dash.accepted l := by
  cases i with
  | cut => rfl
  | frame f w =>
    have key : ∀ x : Dash.AOp, (x = .frame (frm rate off f) f.samples ∨ x = .append (frm rate off f) f.samples) →
        Dash.accepted (x :: l) = (if f.raw = [] ∨ f.samples = 0 then [] else [toA rate off f]) ++ Dash.accepted l := by
      rintro x (rfl | rfl) <;> rfl
    by_cases hv : Adts.ValidHeader f.data ∧ w = true
    · have e : op rate off alone (.frame f w) = .frame (frm rate off f) f.samples ∨ op rate off alone (.frame f w) = .append (frm rate off f) f.samples := by
        simp only [op, if_pos hv]
        cases alone
        · exact .inr rfl
        · exact .inl rfl
      rw [key _ e]
      by_cases hg : f.raw = [] ∨ f.samples = 0
      · have : f.good = false := by
          unfold Sound.good
          rw [decide_eq_false_iff_not]
          rintro ⟨_, h2, h3⟩
          rcases hg with h | h
          · have := (raw_nil f).1 h; omega
          · omega
        simp [hg, this, adds]
      · have : f.good = true := by
          unfold Sound.good
          rw [decide_eq_true_eq]
          refine ⟨hv.1, ?_, ?_⟩
          · have : ¬ f.data.length ≤ 7 := fun h => hg (.inl ((raw_nil f).2 h))
            omega
          · have : f.samples ≠ 0 := fun h => hg (.inr h)
            omega
        simp [hg, this, adds, hv.2]
    · have e : op rate off alone (.frame f w) = .append ⟨[], 0, 0, true⟩ 0 := by simp only [op, if_neg hv]
      have hg : (w && f.good) = false := by
        cases w with
        | false => rfl
        | true =>
          simp only [Bool.true_and]
          unfold Sound.good
          rw [decide_eq_false_iff_not]
          exact fun h => hv ⟨h.1, rfl⟩
      rw [e]
      simp [adds, hg, Dash.accepted]

theorem accepted_good (rate : Nat) (off : Int) (alone : Bool) (l : List In) :
    Dash.accepted (l.map (op rate off alone)) = ((sounds l).filter Sound.good).map (toA rate off) := by
  induction l with
  | nil => rfl
  | cons i l ih =>
    rw [List.map_cons, adds_op, ih, ← List.map_append]
    congr 1
    rcases i with ⟨f, w⟩ | _
    · cases w <;> simp [adds, sounds, List.filter_cons]
      split <;> rfl
    · rfl

/-- Cutting a list that is an image. -/
theorem cut_image {α β : Type} (g : α → β) (L : List (List β)) (r : List β) (l : List α) (h : L.flatten ++ r = l.map g) :
    ∃ (P : List (List α)) (q : List α), P.flatten ++ q = l ∧ L = P.map (List.map g) ∧ r = q.map g := by
  induction L generalizing l with
  | nil => exact ⟨[], l, rfl, rfl, by simpa using h⟩
  | cons x L ih =>
    rw [List.flatten_cons, List.append_assoc] at h
    obtain ⟨l1, l2, rfl, h1, h2⟩ := List.map_eq_append_iff.1 h.symm
    obtain ⟨P, q, h3, h4, h5⟩ := ih l2 h2.symm
    exact ⟨l1 :: P, q, by simp [h3], by simp [h1, h4], h5⟩

theorem plays_of (rate : Nat) (off : Int) (s : Dash.Seg) (c : Dash.AClosed) (fs : List Sound) (hf : Dash.AFaithful s c)
    (hc : c.frames = fs.map (toA rate off)) (hne : c.frames ≠ []) : Plays rate off s fs := by
  cases fs with
  | nil => exact absurd hc hne
  | cons a l =>
    obtain ⟨h1, h2, d, h3, h4, h5, h6, h7, -⟩ := hf
    refine ⟨a, l, d, rfl, h3, h5, ?_, ?_, h7, ?_⟩
    · rw [h4, hc]
      simp [Dash.audioPlayable, toA, Function.comp_def]
    · rw [h1, hc]
      exact at64_tick rate off a.pts
    · rw [h2, hc]
      simp [Dash.audioDuration, span, toA, Function.comp_def]

/-- Groups closed are never empty. -/
theorem closed_nonempty (ops : List Dash.AOp) (t : Dash.ASpec) : ∀ c ∈ (t.run ops).2.filterMap id, c.frames ≠ [] := by
  induction ops generalizing t with
  | nil => intro c hc; simp [Dash.ASpec.run] at hc
  | cons o ops ih =>
    intro c hc
    have hcl : ∀ c, t.close.2 = some c → c.frames ≠ [] := by
      intro c hc
      unfold Dash.ASpec.close at hc
      split at hc
      · cases hc
      · rename_i h; cases hc; exact h
    have h1 : ∀ c, (t.step o).2 = some c → c.frames ≠ [] := by
      intro c hc
      cases o with
      | force => exact hcl c hc
      | append f d => cases hc
      | frame f d =>
        simp only [Dash.ASpec.step] at hc
        split at hc
        · exact hcl c hc
        · cases hc
    simp only [Dash.ASpec.run, List.filterMap_cons, id] at hc
    cases hs : (t.step o).2 with
    | none => rw [hs] at hc; exact ih _ c hc
    | some x =>
      rw [hs] at hc
      rcases List.mem_cons.1 hc with h | h
      · subst h; exact h1 _ hs
      · exact ih _ c h

theorem new_rel (a b c : UInt8) (rate secs : Nat) : Rel rate secs (new a b c secs) ⟨secs * rate % 2 ^ 32, [], 0⟩ :=
  ⟨Dash.fresh_arel _ [] 0 0 0, rfl, rfl, rfl⟩

theorem groups_play {rate : Nat} {off : Int} {ss : List Dash.Seg} {cs : List Dash.AClosed} (h : List.Forall₂ Dash.AFaithful ss cs)
    (hn : ∀ c ∈ cs, c.frames ≠ []) (gs : List (List Sound)) (hg : cs.map Dash.AClosed.frames = gs.map (List.map (toA rate off))) :
    List.Forall₂ (Plays rate off) ss gs := by
  induction h generalizing gs with
  | nil => cases gs with
    | nil => exact .nil
    | cons x y => simp at hg
  | @cons s cc ss cs f1 f2 ih =>
    cases gs with
    | nil => simp at hg
    | cons g gs =>
      simp only [List.map_cons, List.cons.injEq] at hg
      exact .cons (plays_of rate off s cc g f1 hg.1 (hn cc (by simp))) (ih (fun c hc => hn c (by simp [hc])) gs hg.2)

/-- Not long enough before the last frame. -/
def Short (target : Nat) (g : List Dash.AFrm) : Prop := ∀ p f q, g = p ++ f :: q → p ≠ [] → Dash.audioDuration p < target

theorem short_add {target : Nat} {g : List Dash.AFrm} (h : Short target g) (hd : g = [] ∨ Dash.audioDuration g < target) (f : Dash.AFrm) :
    Short target (g ++ [f]) := by
  intro p x q he hp
  rcases List.eq_nil_or_concat q with rfl | ⟨q', y, rfl⟩
  · obtain ⟨e1, e2⟩ := List.append_inj' he rfl
    subst e1
    exact hd.resolve_left hp
  · rw [List.concat_eq_append, ← List.cons_append, ← List.append_assoc] at he
    exact h p x q' (List.append_inj' he rfl).1 hp

/-- Without cuts no group is longer than needed. -/
theorem groups_short (ops : List Dash.AOp) (hops : ∀ o ∈ ops, o ≠ .force ∧ ∀ f d, o = .append f d → f.data = []) (t : Dash.ASpec)
    (ht : Short t.target t.group) : ∀ c ∈ (t.run ops).2.filterMap id, Short t.target c.frames := by
  induction ops generalizing t with
  | nil => intro c hc; simp [Dash.ASpec.run] at hc
  | cons o ops ih =>
    intro c hc
    have hadd : ∀ (u : Dash.ASpec) (f : Dash.Frm) (d : Nat), u.target = t.target → Short t.target u.group →
        (u.group = [] ∨ Dash.audioDuration u.group < t.target) → Short t.target (u.add f d).group := by
      intro u f d h1 h2 h3
      unfold Dash.ASpec.add
      split
      · exact h2
      · exact short_add h2 h3 _
    have hs : Short t.target (t.step o).1.group ∧ ∀ c, (t.step o).2 = some c → Short t.target c.frames := by
      cases o with
      | force => exact absurd rfl (hops _ (by simp)).1
      | append f d =>
        have hf := (hops _ (by simp)).2 f d rfl
        simp only [Dash.ASpec.step, Dash.ASpec.add, hf, true_or, if_true]
        exact ⟨ht, fun c h => nomatch h⟩
      | frame f d =>
        simp only [Dash.ASpec.step]
        split
        · unfold Dash.ASpec.close
          split
          · rename_i h; exact ⟨hadd t f d rfl ht (.inl h), fun c h => nomatch h⟩
          · refine ⟨hadd _ f d rfl (fun p x q he => by simp at he) (.inl rfl), ?_⟩
            intro c hc
            cases hc
            exact ht
        · rename_i h
          exact ⟨hadd t f d rfl ht (.inr (by omega)), fun c h => nomatch h⟩
    have ihh := ih (fun o ho => hops o (List.mem_cons_of_mem _ ho)) (t.step o).1 (by rw [step_target]; exact hs.1)
    rw [step_target] at ihh
    simp only [Dash.ASpec.run, List.filterMap_cons, id] at hc
    cases hx : (t.step o).2 with
    | none => rw [hx] at hc; exact ihh c hc
    | some x =>
      rw [hx] at hc
      rcases List.mem_cons.1 hc with h | h
      · subst h; exact hs.2 _ hx
      · exact ihh c h

theorem duration_span (rate : Nat) (off : Int) (g : List Sound) : Dash.audioDuration (g.map (toA rate off)) = span g % 2 ^ 32 := by
  simp [Dash.audioDuration, span, toA, Function.comp_def]

/-- **C86.** Play the segment files of a recorded stream one after the other: they hold exactly the coded sound of the good frames, in
order, each once, one sample for each frame and as long as the frame, but for the newest frames that are still collected; each
segment starts at the time of its first frame.  Without video each segment is complete with the first frame that makes it long
enough. -/
theorem recording_plays_back (cap : Nat) (hcap : cap < 2 ^ 32) (off : Int) (alone : Bool) (a b c : UInt8) (secs rate : Nat) (l : List In)
    (hu : Uniform rate l) (r : State) (outs : List Out) (he : runOps (step cap off alone) (new a b c secs) l = .ok (r, outs)) :
    ∃ (gs : List (List Sound)) (rest : List Sound), List.Forall₂ (Plays rate off) (outs.filterMap Out.seg) gs ∧
      gs.flatten ++ rest = (sounds l).filter Sound.good ∧
      (alone = true → .cut ∉ l → ∀ g ∈ gs, Due (secs * rate % 2 ^ 32) g) := by
  obtain ⟨_, h2⟩ := run_refines hcap l (new_rel a b c rate secs) hu he
  have hp := Dash.audio_partition (l.map (op rate off alone)) ⟨secs * rate % 2 ^ 32, [], 0⟩
  have hn := closed_nonempty (l.map (op rate off alone)) ⟨secs * rate % 2 ^ 32, [], 0⟩
  rw [accepted_good, List.nil_append] at hp
  obtain ⟨gs, rest, h3, h4, h5⟩ := cut_image _ _ _ _ hp
  refine ⟨gs, rest, groups_play h2 hn gs h4, h3, ?_⟩
  intro ha hl g hg
  have hops : ∀ o ∈ l.map (op rate off alone), o ≠ .force ∧ ∀ f d, o = .append f d → f.data = [] := by
    intro o ho
    obtain ⟨i, hi, rfl⟩ := List.mem_map.1 ho
    cases i with
    | cut => exact absurd hi hl
    | frame f w =>
      subst ha
      simp only [op, if_true]
      split
      · exact ⟨(nomatch ·), fun f d h => nomatch h⟩
      · refine ⟨(nomatch ·), fun f d h => ?_⟩
        cases h; rfl
  have hm : g.map (toA rate off) ∈ ((Dash.ASpec.run ⟨secs * rate % 2 ^ 32, [], 0⟩ (l.map (op rate off alone))).2.filterMap id).map Dash.AClosed.frames := by
    rw [h4]; exact List.mem_map_of_mem hg
  obtain ⟨x, hx, ex⟩ := List.mem_map.1 hm
  have k1 := (Dash.audio_reaches_target _ (fun o ho => (hops o ho).1) ⟨secs * rate % 2 ^ 32, [], 0⟩ x hx).2
  have k2 := groups_short _ hops ⟨secs * rate % 2 ^ 32, [], 0⟩ (fun p x q he => by simp at he) x hx
  rw [ex] at k1 k2
  refine ⟨by rw [← duration_span rate off]; exact k1, ?_⟩
  intro p f q e hp
  rw [← duration_span rate off]
  exact k2 _ (toA rate off f) (q.map (toA rate off)) (by rw [e]; simp) (by simpa using hp)

theorem between_run (rate : Nat) (off : Int) (l : List In) (acc : List Sound) (t : Dash.ASpec) (ht : t.group = acc.map (toA rate off)) :
    ((t.run (l.map (op rate off false))).2.filterMap id).map Dash.AClosed.frames = (between acc l).1.map (List.map (toA rate off)) ∧
      (t.run (l.map (op rate off false))).1.group = (between acc l).2.map (toA rate off) := by
  induction l generalizing acc t with
  | nil => exact ⟨rfl, ht⟩
  | cons i l ih =>
    cases i with
    | cut =>
      simp only [List.map_cons, op, Dash.ASpec.run, Dash.ASpec.step, Dash.ASpec.close, between]
      by_cases h : acc = []
      · subst h
        have ht' : t.group = [] := ht
        rw [if_pos ht', if_pos rfl]
        exact ih [] t ht
      · have h' : t.group ≠ [] := by rw [ht]; simpa using h
        rw [if_neg h', if_neg h]
        obtain ⟨g1, g2⟩ := ih [] { t with group := [], closed := t.closed + 1 } rfl
        refine ⟨?_, g2⟩
        show t.group :: List.map Dash.AClosed.frames (List.filterMap id _) = acc.map (toA rate off) :: _
        rw [ht]
        exact congrArg _ g1
    | frame f w =>
      have e : ∃ x d, op rate off false (.frame f w) = .append x d := by
        simp only [op, Bool.false_eq_true, if_false]
        split
        · exact ⟨_, _, rfl⟩
        · exact ⟨_, _, rfl⟩
      obtain ⟨x, d, e⟩ := e
      have hg : (t.add x d).group = (if w && f.good then acc ++ [f] else acc).map (toA rate off) := by
        have ha := adds_op rate off false (.frame f w) []
        rw [e] at ha
        simp only [Dash.accepted, List.append_nil] at ha
        have : (t.add x d).group = t.group ++ (if x.data = [] ∨ d = 0 then [] else [⟨x.data, d, x.pts⟩]) := by
          unfold Dash.ASpec.add
          split <;> simp
        rw [this, ha, ht]
        simp only [adds]
        split <;> simp
      obtain ⟨g1, g2⟩ := ih _ (t.add x d) hg
      simp only [List.map_cons, e, Dash.ASpec.run, Dash.ASpec.step, between]
      exact ⟨g1, g2⟩

/-- **C86.** With video the segments of the audio are cut where those of the video are: each holds the good frames that came between
two cuts. -/
theorem recording_follows_video (cap : Nat) (hcap : cap < 2 ^ 32) (off : Int) (a b c : UInt8) (secs rate : Nat) (l : List In)
    (hu : Uniform rate l) (r : State) (outs : List Out) (he : runOps (step cap off false) (new a b c secs) l = .ok (r, outs)) :
    List.Forall₂ (Plays rate off) (outs.filterMap Out.seg) (between [] l).1 := by
  obtain ⟨_, h2⟩ := run_refines hcap l (new_rel a b c rate secs) hu he
  exact groups_play h2 (closed_nonempty _ _) _ (between_run rate off l [] _ rfl).1

/-- A time can be converted exactly if its distance from the origin, in ticks per million, fits in 64 bits. -/
theorem ticks_defined (rate : Nat) (off m : Int) : (∃ t, ticks rate off m = .ok t) ↔ (-2 ^ 63 ≤ (m - off) * rate ∧ (m - off) * rate < 2 ^ 63) := by
  unfold ticks
  simp only
  constructor
  · rintro ⟨t, h⟩
    split at h
    · cases h
    · omega
  · intro h
    rw [if_neg (by omega)]
    exact ⟨_, rfl⟩

end Lms.RecordAudio
