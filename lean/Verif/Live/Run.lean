import Verif.Live.Publish
import Verif.Record.Props
import Verif.RecordAudio.Props

/-!
# C87: whole runs
-/

namespace Lms.Live

open Lms.Json Lms.Control
open Lms.Manifest (El VRep ARep setId mediaTemplate initTemplate segmentName initName Facts Known Rel Says read lastOf)

/-! ## Publishing -/

def Made.none : Made := ⟨[], [], [], []⟩

/-- Everything handed over. -/
def Made.all (M : Made) (ts : List Took) : Made := ts.foldl Made.add M

def Pair.AllFit (p : Pair) : Made → List Took → Prop
  | _, [] => True
  | M, t :: ts => p.Fits M t ∧ p.AllFit (M.add t) ts

/-- At some moment of a run: each kind shows what was handed over up to some round, and starts with an initialisation file that is not older. -/
def Pair.Sometime (p : Pair) (M : Made) (ts : List Took) (fs : Fs) : Prop :=
  (∃ a c, a ≤ c ∧ p.v.Shows fs (M.all (ts.take a)).sv ∧ p.v.Begins fs (M.all (ts.take c)).jv) ∧
  (∃ b d, b ≤ d ∧ p.a.Shows fs (M.all (ts.take b)).sa ∧ p.a.Begins fs (M.all (ts.take d)).ja)

theorem sometime_cons (p : Pair) {M : Made} {t : Took} {ts : List Took} {fs : Fs} (h : p.Sometime (M.add t) ts fs) : p.Sometime M (t :: ts) fs := by
  obtain ⟨⟨a, c, l1, h1, h3⟩, b, d, l2, h2, h4⟩ := h
  exact ⟨⟨a + 1, c + 1, by omega, h1, h3⟩, b + 1, d + 1, by omega, h2, h4⟩

theorem sometime_during (p : Pair) {M : Made} {t : Took} {ts : List Took} {fs : Fs} (h : p.During M (M.add t) fs) : p.Sometime M (t :: ts) fs := by
  obtain ⟨h1, h2⟩ := h
  constructor
  · rcases h1 with ⟨h, h' | h'⟩ | ⟨h, h'⟩
    · exact ⟨0, 0, by omega, h, h'⟩
    · exact ⟨0, 1, by omega, h, h'⟩
    · exact ⟨1, 1, by omega, h, h'⟩
  · rcases h2 with ⟨h, h' | h'⟩ | ⟨h, h'⟩
    · exact ⟨0, 0, by omega, h, h'⟩
    · exact ⟨0, 1, by omega, h, h'⟩
    · exact ⟨1, 1, by omega, h, h'⟩

theorem take_ids {cap : Nat} {off : Int} {x y : Inputs} {r : Round} {t : Took} (h : take cap off x r = .ok (y, t)) :
    number Prod.fst y.v = number Prod.fst x.v ∧ number Audio.id y.a = number Audio.id x.a ∧ y.v.isNone = x.v.isNone := by
  unfold take at h
  cases h1 : feedVideo cap off x.v r.unit with
  | ub => rw [h1] at h; cases h
  | hang => rw [h1] at h; cases h
  | ok v =>
    rw [h1] at h
    simp only [Outcome.bind_ok] at h
    cases h2 : feedAudio cap off x.v.isNone x.a r.sound with
    | ub => rw [h2] at h; cases h
    | hang => rw [h2] at h; cases h
    | ok a =>
      rw [h2] at h
      simp only [Outcome.bind_ok] at h
      cases h3 : cutAudio cap off a.1 v.2.seg.isSome with
      | ub => rw [h3] at h; cases h
      | hang => rw [h3] at h; cases h
      | ok b =>
        rw [h3] at h
        simp only [Outcome.bind_ok, Outcome.ok.injEq, Prod.mk.injEq] at h
        obtain ⟨rfl, _⟩ := h
        have ev : number Prod.fst v.1 = number Prod.fst x.v ∧ v.1.isNone = x.v.isNone := by
          unfold feedVideo at h1
          split at h1
          · rename_i y u e1 e2
            cases hq : Record.step cap off y.2 u with
            | ub => rw [hq] at h1; cases h1
            | hang => rw [hq] at h1; cases h1
            | ok q => rw [hq] at h1; cases h1; rw [e1]; exact ⟨rfl, rfl⟩
          · cases h1; exact ⟨rfl, rfl⟩
        have ea : number Audio.id a.1 = number Audio.id x.a := by
          unfold feedAudio at h2
          split at h2
          · rename_i y u e1 e2
            cases hq : RecordAudio.step cap off x.v.isNone y.seg (.frame u.1 u.2) with
            | ub => rw [hq] at h2; cases h2
            | hang => rw [hq] at h2; cases h2
            | ok q => rw [hq] at h2; cases h2; rw [e1]; rfl
          · cases h2; rfl
        have eb : number Audio.id b.1 = number Audio.id a.1 := by
          unfold cutAudio at h3
          split at h3
          · rename_i y e1 e2
            cases hq : RecordAudio.step cap off false y.seg .cut with
            | ub => rw [hq] at h3; cases h3
            | hang => rw [hq] at h3; cases h3
            | ok q => rw [hq] at h3; cases h3; rw [e1]; rfl
          · cases h3; rfl
        exact ⟨ev.1, eb.trans ea, ev.2⟩

/-- A run goes through whenever the segmenters' part does, and shows at every moment what was handed over so far. -/
theorem run_shows (p : Pair) {cap : Nat} {off : Int} (rs : List Round) (s : State) (M : Made) (fs : Fs) (x : Inputs) (ts : List Took)
    (hf : s.folder = p.v.folder) (hbase : s.base = p.v.base) (hv : number Prod.fst s.inputs.v = p.v.id) (ha : number Audio.id s.inputs.a = p.a.id)
    (h : p.Inv s.mpd M) (hs : p.Shows fs M) (ht : runOps (take cap off) s.inputs rs = .ok (x, ts)) (hfit : p.AllFit M ts) :
    ∃ s' ess, runOps (round cap off) s rs = .ok (s', ess) ∧ s'.inputs = x ∧ p.Shows (fs.run ess.flatten) (M.all ts) ∧
      Along (p.Sometime M ts) fs ess.flatten := by
  induction rs generalizing s M fs ts with
  | nil =>
    simp only [runOps, Outcome.ok.injEq, Prod.mk.injEq] at ht
    obtain ⟨rfl, rfl⟩ := ht
    exact ⟨s, [], rfl, rfl, hs, along_nil ⟨⟨0, 0, by omega, hs.1, hs.2.2.1⟩, 0, 0, by omega, hs.2.1, hs.2.2.2⟩⟩
  | cons r rs ih =>
    obtain ⟨x1, t, ts', h1, h2, rfl⟩ := runOps_cons_ok ht
    obtain ⟨f1, f2⟩ := hfit
    obtain ⟨m1, es, g1, g2, g3, g4⟩ := publish_step p h hs t f1 r
    obtain ⟨i1, i2, _⟩ := take_ids h1
    have hr : round cap off s r = .ok ({ s with inputs := x1, mpd := m1 }, es) := by
      unfold round
      rw [h1]
      simp only [Outcome.bind_ok, hf, hbase, hv, ha]
      rw [g1]
      simp only [Outcome.bind_ok]
    obtain ⟨s', ess, k1, k2, k3, k4⟩ := ih { s with inputs := x1, mpd := m1 } (M.add t) (fs.run es) ts' hf hbase (i1.trans hv) (i2.trans ha) g2 g3 h2 f2
    refine ⟨s', es :: ess, by simp only [runOps, hr, Outcome.bind_ok, k1], k2, ?_, ?_⟩
    · rw [List.flatten_cons, run_append]; exact k3
    · rw [List.flatten_cons]
      exact along_append (along_mono (fun _ h => sometime_during p h) g4) (along_mono (fun _ h => sometime_cons p h) k4)

/-! ## Taking apart what is handed over -/

theorem all_eq (M : Made) (ts : List Took) : M.all ts = ⟨M.sv ++ ts.filterMap (·.v.seg), M.sa ++ ts.filterMap (·.a.seg),
    M.jv ++ ts.filterMap (·.v.init), M.ja ++ ts.filterMap (·.a.init)⟩ := by
  induction ts generalizing M with
  | nil => simp [Made.all]
  | cons t ts ih =>
    show (M.add t).all ts = _
    rw [ih]
    simp only [Made.add, List.append_assoc, List.filterMap_cons]
    cases t.v.seg <;> cases t.a.seg <;> cases t.v.init <;> cases t.a.init <;> rfl

/-- The video input among the rounds. -/
theorem video_part {cap : Nat} {off : Int} (rs : List Round) {x y : Inputs} {ts : List Took} (h : runOps (take cap off) x rs = .ok (y, ts)) :
    (∀ i v, x.v = some (i, v) → ∃ v' outs, y.v = some (i, v') ∧ runOps (Record.step cap off) v (rs.filterMap Round.unit) = .ok (v', outs) ∧
      ts.filterMap (·.v.seg) = outs.filterMap Record.Out.seg ∧ ts.filterMap (·.v.init) = outs.filterMap Record.Out.init) ∧
    (x.v = none → ts.filterMap (·.v.seg) = [] ∧ ts.filterMap (·.v.init) = []) := by
  induction rs generalizing x ts with
  | nil =>
    simp only [runOps, Outcome.ok.injEq, Prod.mk.injEq] at h
    obtain ⟨rfl, rfl⟩ := h
    exact ⟨fun i v hv => ⟨v, [], hv, rfl, rfl, rfl⟩, fun _ => ⟨rfl, rfl⟩⟩
  | cons r rs ih =>
    obtain ⟨x1, t, ts', h1, h2, rfl⟩ := runOps_cons_ok h
    obtain ⟨ih1, ih2⟩ := ih h2
    have key : ∃ v1, feedVideo cap off x.v r.unit = .ok (x1.v, v1) ∧ t.v = v1 := by
      unfold take at h1
      cases hq : feedVideo cap off x.v r.unit with
      | ub => rw [hq] at h1; cases h1
      | hang => rw [hq] at h1; cases h1
      | ok v =>
        rw [hq] at h1
        simp only [Outcome.bind_ok] at h1
        cases h2 : feedAudio cap off x.v.isNone x.a r.sound with
        | ub => rw [h2] at h1; cases h1
        | hang => rw [h2] at h1; cases h1
        | ok a =>
          rw [h2] at h1
          simp only [Outcome.bind_ok] at h1
          cases h3 : cutAudio cap off a.1 v.2.seg.isSome with
          | ub => rw [h3] at h1; cases h1
          | hang => rw [h3] at h1; cases h1
          | ok b =>
            rw [h3] at h1
            simp only [Outcome.bind_ok, Outcome.ok.injEq, Prod.mk.injEq] at h1
            obtain ⟨rfl, rfl⟩ := h1
            exact ⟨v.2, rfl, rfl⟩
    obtain ⟨v1, k1, k2⟩ := key
    constructor
    · intro i v hv
      rw [hv] at k1
      cases hu : r.unit with
      | none =>
        rw [hu] at k1
        simp only [feedVideo, Outcome.ok.injEq, Prod.mk.injEq] at k1
        obtain ⟨k1, rfl⟩ := k1
        obtain ⟨v', outs, a1, a2, a3, a4⟩ := ih1 i v k1.symm
        refine ⟨v', outs, a1, by simpa [hu] using a2, ?_, ?_⟩
        · rw [List.filterMap_cons, k2]; exact a3
        · rw [List.filterMap_cons, k2]; exact a4
      | some u =>
        rw [hu] at k1
        simp only [feedVideo] at k1
        cases hq : Record.step cap off v u with
        | ub => rw [hq] at k1; cases k1
        | hang => rw [hq] at k1; cases k1
        | ok q =>
          rw [hq] at k1
          simp only [Outcome.bind_ok, Outcome.ok.injEq, Prod.mk.injEq] at k1
          obtain ⟨k1, rfl⟩ := k1
          obtain ⟨v', outs, a1, a2, a3, a4⟩ := ih1 i q.1 k1.symm
          refine ⟨v', q.2 :: outs, a1, ?_, ?_, ?_⟩
          · rw [List.filterMap_cons, hu]
            simp only [runOps, hq, Outcome.bind_ok, a2]
          · rw [List.filterMap_cons, k2, List.filterMap_cons, a3]
          · rw [List.filterMap_cons, k2, List.filterMap_cons, a4]
    · intro hv
      rw [hv] at k1
      have : feedVideo cap off none r.unit = .ok (none, ⟨none, none⟩) := by unfold feedVideo; rfl
      rw [this] at k1
      simp only [Outcome.ok.injEq, Prod.mk.injEq] at k1
      obtain ⟨k1, rfl⟩ := k1
      obtain ⟨a1, a2⟩ := ih2 k1.symm
      exact ⟨by rw [List.filterMap_cons, k2]; exact a1, by rw [List.filterMap_cons, k2]; exact a2⟩

/-- The frames among what happens to an audio input. -/
def frames : List RecordAudio.In → List (RecordAudio.Sound × Bool)
  | [] => []
  | .frame f w :: l => (f, w) :: frames l
  | .cut :: l => frames l

/-- The cuts. -/
def cuts : List RecordAudio.In → Nat
  | [] => 0
  | .frame _ _ :: l => cuts l
  | .cut :: l => cuts l + 1

theorem frames_append (a b : List RecordAudio.In) : frames (a ++ b) = frames a ++ frames b := by
  induction a with
  | nil => rfl
  | cons i a ih => cases i <;> simp [frames, ih]

theorem cuts_append (a b : List RecordAudio.In) : cuts (a ++ b) = cuts a + cuts b := by
  induction a with
  | nil => simp [cuts]
  | cons i a ih =>
    cases i
    · simp [cuts, ih]
    · simp only [List.cons_append, cuts, ih]; omega

/-- What a round does to the audio input. -/
theorem take_audio {cap : Nat} {off : Int} {x y : Inputs} {r : Round} {t : Took} (h : take cap off x r = .ok (y, t)) :
    (x.a = none → y.a = none ∧ t.a.seg = none ∧ t.a.init = none) ∧
    ∀ A, x.a = some A → ∃ A1 A2 o1 o2,
      ((r.sound = none ∧ A1 = A ∧ o1 = ⟨none, none⟩) ∨
        ∃ f w, r.sound = some (f, w) ∧ RecordAudio.step cap off x.v.isNone A.seg (.frame f w) = .ok (A1.seg, o1) ∧ A1.timeBase = f.rate) ∧
      ((t.v.seg = none ∧ A2 = A1 ∧ o2 = ⟨none, none⟩) ∨
        (t.v.seg.isSome = true ∧ x.v.isNone = false ∧ RecordAudio.step cap off false A1.seg .cut = .ok (A2.seg, o2) ∧ A2.timeBase = A1.timeBase)) ∧
      y.a = some A2 ∧ t.a.init = o1.init ∧ t.a.seg = (if x.v.isNone then o1.seg else o2.seg) ∧ t.timeBase = A2.timeBase := by
  unfold take at h
  cases h1 : feedVideo cap off x.v r.unit with
  | ub => rw [h1] at h; cases h
  | hang => rw [h1] at h; cases h
  | ok v =>
    rw [h1] at h
    simp only [Outcome.bind_ok] at h
    cases h2 : feedAudio cap off x.v.isNone x.a r.sound with
    | ub => rw [h2] at h; cases h
    | hang => rw [h2] at h; cases h
    | ok a =>
      rw [h2] at h
      simp only [Outcome.bind_ok] at h
      cases h3 : cutAudio cap off a.1 v.2.seg.isSome with
      | ub => rw [h3] at h; cases h
      | hang => rw [h3] at h; cases h
      | ok b =>
        rw [h3] at h
        simp only [Outcome.bind_ok, Outcome.ok.injEq, Prod.mk.injEq] at h
        obtain ⟨rfl, rfl⟩ := h
        have hnv : v.2.seg.isSome = true → x.v.isNone = false := by
          intro hv
          cases hx : x.v with
          | some _ => rfl
          | none =>
            rw [hx] at h1
            cases h1
            cases hv
        constructor
        · intro hx
          rw [hx] at h2
          have e : feedAudio cap off x.v.isNone none r.sound = .ok (none, ⟨none, none⟩) := by unfold feedAudio; rfl
          rw [e] at h2
          cases h2
          have e : cutAudio cap off none v.2.seg.isSome = .ok (none, ⟨none, none⟩) := by unfold cutAudio; rfl
          rw [e] at h3
          cases h3
          refine ⟨rfl, ?_, rfl⟩
          simp only; split <;> rfl
        · intro A hx
          rw [hx] at h2
          have key : ∃ A1 o1, a = (some A1, o1) ∧ ((r.sound = none ∧ A1 = A ∧ o1 = ⟨none, none⟩) ∨
              ∃ f w, r.sound = some (f, w) ∧ RecordAudio.step cap off x.v.isNone A.seg (.frame f w) = .ok (A1.seg, o1) ∧ A1.timeBase = f.rate) := by
            cases hs : r.sound with
            | none =>
              rw [hs] at h2
              cases h2
              exact ⟨A, ⟨none, none⟩, rfl, .inl ⟨rfl, rfl, rfl⟩⟩
            | some u =>
              rw [hs] at h2
              simp only [feedAudio] at h2
              cases hq : RecordAudio.step cap off x.v.isNone A.seg (.frame u.1 u.2) with
              | ub => rw [hq] at h2; cases h2
              | hang => rw [hq] at h2; cases h2
              | ok q =>
                rw [hq] at h2
                cases h2
                exact ⟨_, _, rfl, .inr ⟨u.1, u.2, rfl, hq, rfl⟩⟩
          obtain ⟨A1, o1, rfl, k1⟩ := key
          cases hc : v.2.seg with
          | none =>
            rw [hc] at h3
            cases h3
            exact ⟨A1, A1, o1, ⟨none, none⟩, k1, .inl ⟨rfl, rfl, rfl⟩, rfl, rfl, rfl, rfl⟩
          | some g =>
            have hnv' := hnv (by rw [hc]; rfl)
            rw [hc] at h3
            simp only [cutAudio, Option.isSome_some] at h3
            cases hq : RecordAudio.step cap off false A1.seg .cut with
            | ub => rw [hq] at h3; cases h3
            | hang => rw [hq] at h3; cases h3
            | ok q =>
              rw [hq] at h3
              cases h3
              exact ⟨A1, { A1 with seg := q.1 }, o1, q.2, k1, .inr ⟨rfl, hnv', hq, rfl⟩, rfl, rfl, rfl, rfl⟩

theorem cut_alone {cap : Nat} {off : Int} (a b : Bool) (s : RecordAudio.State) :
    RecordAudio.step cap off a s .cut = RecordAudio.step cap off b s .cut := rfl

theorem cut_init {cap : Nat} {off : Int} {a : Bool} {s s' : RecordAudio.State} {o : RecordAudio.Out} (h : RecordAudio.step cap off a s .cut = .ok (s', o)) :
    o.init = none := by
  simp only [RecordAudio.step] at h
  cases hq : Dash.audioStep cap s.seg .force with
  | ub => rw [hq] at h; cases h
  | hang => rw [hq] at h; cases h
  | ok q => rw [hq] at h; cases h; rfl

theorem append_none {cap : Nat} {s : Dash.State} {f : Dash.Frm} {d : Nat} {r : Dash.State × Option Dash.Seg}
    (h : Dash.audioStep cap s (.append f d) = .ok r) : r.2 = none := by
  simp only [Dash.audioStep] at h
  cases hq : Dash.addAudio s f d with
  | ub => rw [hq] at h; cases h
  | hang => rw [hq] at h; cases h
  | ok q => rw [hq] at h; cases h; rfl

/-- With video a frame closes no segment. -/
theorem frame_none {cap : Nat} {off : Int} {s s' : RecordAudio.State} {f : RecordAudio.Sound} {w : Bool} {o : RecordAudio.Out}
    (h : RecordAudio.step cap off false s (.frame f w) = .ok (s', o)) : o.seg = none := by
  simp only [RecordAudio.step] at h
  split at h
  · cases h; rfl
  · cases hm : RecordAudio.makeInit cap (Adts.update s.adts f.data).1 (RecordAudio.setup s.secs s.seg f) with
    | ub => rw [hm] at h; cases h
    | hang => rw [hm] at h; cases h
    | ok q =>
      rw [hm] at h
      simp only [Outcome.bind_ok] at h
      split at h
      · cases h; rfl
      · cases ht : RecordAudio.ticks f.rate off f.pts with
        | ub => rw [ht] at h; cases h
        | hang => rw [ht] at h; cases h
        | ok p =>
          rw [ht] at h
          simp only [Outcome.bind_ok, Bool.false_eq_true, if_false] at h
          cases hv : Dash.audioStep cap q.2.1 (.append ⟨(Adts.samplePart f.data).1, p, p, true⟩ f.samples) with
          | ub => rw [hv] at h; cases h
          | hang => rw [hv] at h; cases h
          | ok v =>
            rw [hv] at h
            simp only [Outcome.bind_ok, Outcome.ok.injEq, Prod.mk.injEq] at h
            rw [← h.2]
            exact append_none hv

/-- The audio input among the rounds: its frames, and a cut for every segment of the video. -/
theorem audio_part {cap : Nat} {off : Int} (rs : List Round) {x y : Inputs} {ts : List Took} (h : runOps (take cap off) x rs = .ok (y, ts)) :
    (∀ A, x.a = some A → ∃ A' l outs, y.a = some A' ∧ runOps (RecordAudio.step cap off x.v.isNone) A.seg l = .ok (A'.seg, outs) ∧
      frames l = rs.filterMap Round.sound ∧ cuts l = (ts.filterMap (·.v.seg)).length ∧
      ts.filterMap (·.a.seg) = outs.filterMap RecordAudio.Out.seg ∧ ts.filterMap (·.a.init) = outs.filterMap RecordAudio.Out.init) ∧
    (x.a = none → ts.filterMap (·.a.seg) = [] ∧ ts.filterMap (·.a.init) = []) := by
  induction rs generalizing x ts with
  | nil =>
    simp only [runOps, Outcome.ok.injEq, Prod.mk.injEq] at h
    obtain ⟨rfl, rfl⟩ := h
    exact ⟨fun A hA => ⟨A, [], [], hA, rfl, rfl, rfl, rfl, rfl⟩, fun _ => ⟨rfl, rfl⟩⟩
  | cons r rs ih =>
    obtain ⟨x1, t, ts', h1, h2, rfl⟩ := runOps_cons_ok h
    obtain ⟨ih1, ih2⟩ := ih h2
    obtain ⟨_, _, hnone⟩ := take_ids h1
    obtain ⟨t1, t2⟩ := take_audio h1
    constructor
    · intro A hA
      obtain ⟨A1, A2, o1, o2, c1, c2, c3, c4, c5, c6⟩ := t2 A hA
      obtain ⟨A', l, outs, a1, a2, a3, a4, a5, a6⟩ := ih1 A2 c3
      rw [hnone] at a2
      -- the cut
      have s2 : ∃ l2 os2, runOps (RecordAudio.step cap off x.v.isNone) A1.seg (l2 ++ l) = .ok (A'.seg, os2 ++ outs) ∧ frames l2 = [] ∧
          cuts l2 = t.v.seg.toList.length ∧ os2.filterMap RecordAudio.Out.seg = o2.seg.toList ∧ os2.filterMap RecordAudio.Out.init = [] := by
        rcases c2 with ⟨d1, rfl, rfl⟩ | ⟨d1, d2, d3, _⟩
        · exact ⟨[], [], a2, rfl, by rw [d1]; rfl, rfl, rfl⟩
        · obtain ⟨g, hg⟩ := Option.isSome_iff_exists.1 d1
          refine ⟨[.cut], [o2], ?_, rfl, by rw [hg]; rfl, ?_, ?_⟩
          · rw [List.singleton_append, List.singleton_append]
            simp only [runOps]
            rw [cut_alone x.v.isNone false, d3]
            simp only [Outcome.bind_ok, a2]
          · rw [List.filterMap_cons]; cases o2.seg <;> rfl
          · simp [cut_init d3]
      obtain ⟨l2, os2, e1, e2, e3, e4, e5⟩ := s2
      have hseg : o1.seg.toList ++ o2.seg.toList = t.a.seg.toList := by
        rw [c5]
        cases hv : x.v.isNone with
        | true =>
          have : o2.seg = none := by
            rcases c2 with ⟨_, _, rfl⟩ | ⟨_, d2, _⟩
            · rfl
            · rw [hv] at d2; cases d2
          rw [this]; simp
        | false =>
          have : o1.seg = none := by
            rcases c1 with ⟨_, _, rfl⟩ | ⟨f, w, _, d, _⟩
            · rfl
            · rw [hv] at d; exact frame_none d
          rw [this]; simp
      have hcount : cuts l2 + cuts l = ((t :: ts').filterMap (·.v.seg)).length := by
        rw [e3, a4, List.filterMap_cons]
        cases t.v.seg with
        | none => simp
        | some g => simp; omega
      have hsegs : ((t :: ts').filterMap (·.a.seg)) = t.a.seg.toList ++ ts'.filterMap (·.a.seg) := by
        rw [List.filterMap_cons]; cases t.a.seg <;> rfl
      have hinits : ((t :: ts').filterMap (·.a.init)) = t.a.init.toList ++ ts'.filterMap (·.a.init) := by
        rw [List.filterMap_cons]; cases t.a.init <;> rfl
      rcases c1 with ⟨d1, rfl, rfl⟩ | ⟨f, w, d1, d2, _⟩
      · refine ⟨A', l2 ++ l, os2 ++ outs, a1, e1, ?_, ?_, ?_, ?_⟩
        · rw [frames_append, e2, List.filterMap_cons, d1]; exact a3
        · rw [cuts_append]; exact hcount
        · rw [hsegs, ← hseg, List.filterMap_append, e4, a5]; rfl
        · rw [hinits, c4, List.filterMap_append, e5, a6]; rfl
      · refine ⟨A', .frame f w :: (l2 ++ l), o1 :: (os2 ++ outs), a1, ?_, ?_, ?_, ?_, ?_⟩
        · simp only [runOps]
          rw [d2]
          simp only [Outcome.bind_ok, e1]
        · simp only [frames]
          rw [frames_append, e2, List.filterMap_cons, d1, a3]; rfl
        · simp only [cuts]
          rw [cuts_append]; exact hcount
        · rw [hsegs, ← hseg, List.filterMap_cons, List.filterMap_append, e4, a5]
          cases o1.seg <;> simp
        · rw [hinits, c4, List.filterMap_cons, List.filterMap_append, e5, a6]
          cases o1.init <;> simp
    · intro hA
      obtain ⟨b1, b2, b3⟩ := t1 hA
      obtain ⟨a1, a2⟩ := ih2 b1
      exact ⟨by rw [List.filterMap_cons, b2]; exact a1, by rw [List.filterMap_cons, b3]; exact a2⟩

/-- Whenever a segment of the audio is handed over, the time base is the rate of the stream. -/
theorem audio_scale {cap : Nat} (hcap : cap < 2 ^ 32) {off : Int} {rate secs : Nat} (rs : List Round) {x y : Inputs} {ts : List Took}
    (h : runOps (take cap off) x rs = .ok (y, ts))
    (hu : ∀ f w, (f, w) ∈ rs.filterMap Round.sound → f.rate = rate ∧ f.samples < 2 ^ 32)
    (hA : ∀ A, x.a = some A → ∃ t, RecordAudio.Rel rate secs A.seg t ∧ (A.timeBase = rate ∨ t.group = [])) :
    ∀ t ∈ ts, t.a.seg.isSome = true → t.timeBase = rate := by
  induction rs generalizing x ts with
  | nil =>
    simp only [runOps, Outcome.ok.injEq, Prod.mk.injEq] at h
    obtain ⟨rfl, rfl⟩ := h
    intro t ht; cases ht
  | cons r rs ih =>
    obtain ⟨x1, t, ts', h1, h2, rfl⟩ := runOps_cons_ok h
    obtain ⟨t1, t2⟩ := take_audio h1
    have hu' : ∀ f w, (f, w) ∈ rs.filterMap Round.sound → f.rate = rate ∧ f.samples < 2 ^ 32 := by
      intro f w hf
      refine hu f w ?_
      rw [List.filterMap_cons]
      cases r.sound
      · exact hf
      · exact List.mem_cons_of_mem _ hf
    cases hx : x.a with
    | none =>
      obtain ⟨b1, b2, _⟩ := t1 hx
      intro q hq hs
      rcases List.mem_cons.1 hq with rfl | hq
      · rw [b2] at hs; cases hs
      · exact ih h2 hu' (fun A hA => by rw [b1] at hA; cases hA) q hq hs
    | some A =>
      obtain ⟨A1, A2, o1, o2, c1, c2, c3, c4, c5, c6⟩ := t2 A hx
      obtain ⟨g, hrel, hg⟩ := hA A hx
      have k1 : ∃ g1, RecordAudio.Rel rate secs A1.seg g1 ∧ (A1.timeBase = rate ∨ g1.group = []) ∧ (o1.seg.isSome = true → A1.timeBase = rate) := by
        rcases c1 with ⟨_, rfl, rfl⟩ | ⟨f, w, d1, d2, d3⟩
        · exact ⟨g, hrel, hg, (nomatch ·)⟩
        · have hf := hu f w (by rw [List.filterMap_cons, d1]; exact List.mem_cons_self ..)
          obtain ⟨e1, _⟩ := RecordAudio.step_refines hcap hrel (i := .frame f w) (by
            intro f' w' hm
            rw [List.mem_singleton] at hm
            cases hm; exact hf) d2
          exact ⟨_, e1, .inl (d3.trans hf.1), fun _ => d3.trans hf.1⟩
      obtain ⟨g1, r1, r2, r3⟩ := k1
      have k2 : ∃ g2, RecordAudio.Rel rate secs A2.seg g2 ∧ (A2.timeBase = rate ∨ g2.group = []) ∧ (t.a.seg.isSome = true → A2.timeBase = rate) := by
        rcases c2 with ⟨_, rfl, rfl⟩ | ⟨_, d2, d3, d4⟩
        · refine ⟨g1, r1, r2, fun hs => r3 ?_⟩
          rw [c5] at hs
          split at hs
          · exact hs
          · cases hs
        · obtain ⟨e1, e2, _⟩ := RecordAudio.step_refines hcap r1 (i := .cut) (by
            intro f' w' hm
            rw [List.mem_singleton] at hm
            cases hm) d3
          simp only [RecordAudio.op, Dash.ASpec.step, Dash.ASpec.close] at e1 e2
          rcases r2 with r2 | r2
          · exact ⟨_, e1, .inl (d4.trans r2), fun _ => d4.trans r2⟩
          · rw [if_pos r2] at e1 e2
            refine ⟨g1, e1, .inr r2, fun hs => ?_⟩
            rw [c5, d2] at hs
            obtain ⟨z, hz⟩ := Option.isSome_iff_exists.1 hs
            simp only [Bool.false_eq_true, if_false] at hz
            rw [hz] at e2
            exact e2.elim
      obtain ⟨g2, q1, q2, q3⟩ := k2
      intro q hq hs
      rcases List.mem_cons.1 hq with rfl | hq
      · rw [c6]; exact q3 hs
      · exact ih h2 hu' (fun B hB => by rw [c3] at hB; cases hB; exact ⟨g2, q1, q2⟩) q hq hs

end Lms.Live
