import Verif.Manifest.Names

/-!
# C80: what the DASH filter writes and what its manifest leads to

The calls that the DASH filter makes of the manager, in the order it makes them, with the names of the files it writes.  When segments
are closed and complete is the area `DashTop`; which files are removed is the area `Mpd`.  Readers are numbered from zero.
-/

namespace Lms.Manifest

open Lms Lms.Json Lms.Control

/-- Dasher.hh: `basePath` (ending in a slash), `baseName`, `mpdMngr`, the keys of `vSegments` and `aSegments`. -/
structure Dash where
  folder : Str
  base : Str
  mpd : State
  v : List Nat
  a : List Nat

/-- src/modules/dasher/Dasher.cpp:53-85: after the first configuration that is accepted. -/
def Dash.init (folder base : Str) (minBuff maxSegment segDur : Nat) : Dash :=
  { folder := folder, base := base, mpd := configure State.init minBuff maxSegment segDur, v := [], a := [] }

/-- Dasher.hh:41-42 `V_ADAPT_SET_ID`, `A_ADAPT_SET_ID`. -/
def setId (audio : Bool) : Str := if audio then "1".toList else "0".toList

inductive DashOp where
  /-- src/modules/dasher/Dasher.cpp:499-548 `specificReaderConfig`, accepted. -/
  | add (audio : Bool) (id : Nat)
  /-- src/modules/dasher/Dasher.cpp:550-584 `specificReaderDelete`. -/
  | del (id : Nat) (now : Str)
  /-- src/modules/dasher/Dasher.cpp:215-225: a video segment is closed. -/
  | closedVideo (id : Nat) (timeBase : Int) (r : VRep) (fps : Int)
  /-- src/modules/dasher/Dasher.cpp:227-236, 366-376: an audio segment is closed. -/
  | closedAudio (id : Nat) (timeBase : Int) (r : ARep)
  /-- src/modules/dasher/Dasher.cpp:245-296, 310-349 once all segments are complete; `ok`: the file of the reader can be opened. -/
  | write (audio : Bool) (ts dur : Nat) (ok : Nat → Bool) (now : Str)

/-- The files written, in order, and the manifest written after them. -/
structure Eff where
  files : List File
  doc : Option El

/-- The calls made of the manager. -/
def Dash.calls (d : Dash) : DashOp → List Op
  | .add _ _ => []
  | .del id now =>
    if id ∈ d.v ∨ id ∈ d.a then
      (if id ∈ d.v then [Op.remove (setId false) (dec id)] else []) ++ (if id ∈ d.a then [Op.remove (setId true) (dec id)] else []) ++
        [.write now]
    else []
  | .closedVideo id t r fps =>
    if id ∈ d.v then
      [.videoSet (setId false) t (mediaTemplate d.base false) (initTemplate d.base false), .videoRep (setId false) (dec id) r fps]
    else []
  | .closedAudio id t r =>
    if id ∈ d.a then
      [.audioSet (setId true) t (mediaTemplate d.base true) (initTemplate d.base true), .audioRep (setId true) (dec id) r]
    else []
  | .write audio ts dur ok now =>
    let ids := if audio then d.a else d.v
    if ids ≠ [] ∧ ids.all ok = true then [.time (setId audio) ts dur, .write now] else []

/-- The readers afterwards. -/
def Dash.readers (d : Dash) : DashOp → Dash
  | .add audio id =>
    if id ∈ d.v ∨ id ∈ d.a then d else if audio then { d with a := d.a ++ [id] } else { d with v := d.v ++ [id] }
  | .del id _ => { d with v := d.v.filter fun x => decide (x ≠ id), a := d.a.filter fun x => decide (x ≠ id) }
  | _ => d

/-- src/modules/dasher/Dasher.cpp:382-396 `writeSegmentsToDisk`: up to the first file that cannot be opened (readers here in the order
they were added, in the code by number). -/
def Dash.files (d : Dash) : DashOp → List File
  | .write audio ts _ ok _ =>
    ((if audio then d.a else d.v).takeWhile ok).map fun id => .segment (d.folder ++ d.base) id ts audio
  | _ => []

/-- One step. -/
def Dash.step (d : Dash) (op : DashOp) : Outcome (Dash × Eff) :=
  (runOps Manifest.step d.mpd (d.calls op)).bind fun r =>
  .ok ({ d.readers op with mpd := r.1 }, { files := d.files op, doc := r.2.getLast?.bind id })

/-! ## The invariant -/

structure Fits (d : Dash) (f : Facts) : Prop where
  rel : Rel d.mpd f
  other : ∀ id, id ≠ setId false → id ≠ setId true → f.sets id = none
  video : ∀ k, f.sets (setId false) = some k → k.audio = false ∧ k.media = mediaTemplate d.base false ∧
    k.init = initTemplate d.base false ∧ ∀ r, k.reps r ≠ none → ∃ i ∈ d.v, r = dec i
  audio : ∀ k, f.sets (setId true) = some k → k.audio = true ∧ k.media = mediaTemplate d.base true ∧
    k.init = initTemplate d.base true ∧ ∀ r, k.reps r ≠ none → ∃ i ∈ d.a, r = dec i

theorem run_calls (s : State) (f : Facts) (h : Rel s f) (ops : List Op) :
    ∃ s' ds, runOps step s ops = .ok (s', ds) ∧ Rel s' (ops.foldl Facts.after f) ∧
      (∀ e, ds.getLast?.bind id = some e → ∃ m, read e = some m ∧ Says m (ops.foldl Facts.after f)) ∧
      ((∃ now, ops.getLast? = some (.write now)) ↔ (ds.getLast?.bind id).isSome = true) := by
  induction ops generalizing s f with
  | nil => exact ⟨s, [], rfl, h, by simp, by simp⟩
  | cons op ops ih =>
    obtain ⟨s1, d, h1, h2, h3, h4⟩ := rel_step s f h op
    obtain ⟨s2, ds, h5, h6, h7, h8⟩ := ih s1 _ h2
    refine ⟨s2, d :: ds, by simp only [runOps, h1, Outcome.bind_ok, h5], h6, ?_, ?_⟩
    · intro e he
      cases ops with
      | nil =>
        simp only [runOps] at h5
        cases h5
        simp only [List.getLast?_singleton, Option.bind_some, id] at he
        exact h3 e he
      | cons o ops =>
        cases ds with
        | nil =>
          exfalso
          simp only [runOps] at h5
          cases hx : step s1 o with
          | ub => rw [hx] at h5; cases h5
          | hang => rw [hx] at h5; cases h5
          | ok r =>
            rw [hx] at h5
            simp only [Outcome.bind_ok] at h5
            cases hy : runOps step r.1 ops with
            | ub => rw [hy] at h5; cases h5
            | hang => rw [hy] at h5; cases h5
            | ok q => rw [hy] at h5; cases h5
        | cons x ds =>
          rw [List.getLast?_cons_cons] at he
          exact h7 e he
    · cases ops with
      | nil =>
        simp only [runOps] at h5
        cases h5
        simpa using h4
      | cons o ops =>
        cases ds with
        | nil =>
          exfalso
          simp only [runOps] at h5
          cases hx : step s1 o with
          | ub => rw [hx] at h5; cases h5
          | hang => rw [hx] at h5; cases h5
          | ok r =>
            rw [hx] at h5
            simp only [Outcome.bind_ok] at h5
            cases hy : runOps step r.1 ops with
            | ub => rw [hy] at h5; cases h5
            | hang => rw [hy] at h5; cases h5
            | ok q => rw [hy] at h5; cases h5
        | cons x ds =>
          rw [List.getLast?_cons_cons, List.getLast?_cons_cons]
          exact h8

theorem set_ids : setId false ≠ setId true := by decide

theorem fits_init (folder base : Str) (mb ms sd : Nat) : Fits (Dash.init folder base mb ms sd) (Facts.none.after (.configure mb ms sd)) := by
  obtain ⟨s', d, h1, h2, _⟩ := rel_step State.init Facts.none rel_init (.configure mb ms sd)
  simp only [step] at h1
  cases h1
  exact ⟨h2, fun _ _ _ => rfl, fun k h => (by cases h), fun k h => (by cases h)⟩

/-- The facts after the calls of one operation fit the readers after it. -/
theorem fits_calls (d : Dash) (f : Facts) (h : Fits d f) (op : DashOp) (s' : State) (hr : Rel s' ((d.calls op).foldl Facts.after f)) :
    Fits { d.readers op with mpd := s' } ((d.calls op).foldl Facts.after f) := by
  obtain ⟨h1, h2, h3, h4⟩ := h
  have hne := set_ids
  cases op with
  | add audio id =>
    simp only [Dash.calls, List.foldl_nil, Dash.readers] at hr ⊢
    split
    · exact ⟨hr, h2, h3, h4⟩
    · cases audio
      · refine ⟨hr, h2, fun k hk => ?_, h4⟩
        obtain ⟨a1, a2, a3, a4⟩ := h3 k hk
        exact ⟨a1, a2, a3, fun r hr => by obtain ⟨i, hi, he⟩ := a4 r hr; exact ⟨i, List.mem_append_left _ hi, he⟩⟩
      · refine ⟨hr, h2, h3, fun k hk => ?_⟩
        obtain ⟨a1, a2, a3, a4⟩ := h4 k hk
        exact ⟨a1, a2, a3, fun r hr => by obtain ⟨i, hi, he⟩ := a4 r hr; exact ⟨i, List.mem_append_left _ hi, he⟩⟩
  | del id now =>
    have hv : ∀ k, f.sets (setId false) = some k → id ∉ d.v → k.reps (dec id) = none := by
      intro k hk hi
      cases hx : k.reps (dec id) with
      | none => rfl
      | some x =>
        obtain ⟨i, h5, h6⟩ := (h3 k hk).2.2.2 (dec id) (by rw [hx]; simp)
        rw [dec_inj h6] at hi; exact absurd h5 hi
    have ha : ∀ k, f.sets (setId true) = some k → id ∉ d.a → k.reps (dec id) = none := by
      intro k hk hi
      cases hx : k.reps (dec id) with
      | none => rfl
      | some x =>
        obtain ⟨i, h5, h6⟩ := (h4 k hk).2.2.2 (dec id) (by rw [hx]; simp)
        rw [dec_inj h6] at hi; exact absurd h5 hi
    have stay : ∀ (l : List Nat) (r : Str), (∃ i ∈ l, r = dec i) → r ≠ dec id → ∃ i ∈ l.filter (fun x => decide (x ≠ id)), r = dec i := by
      rintro l r ⟨i, hi, rfl⟩ hx
      exact ⟨i, List.mem_filter.2 ⟨hi, by simpa using fun he : i = id => hx (by rw [he])⟩, rfl⟩
    have keepV : ∀ k, f.sets (setId false) = some k → id ∉ d.v → k.audio = false ∧ k.media = mediaTemplate d.base false ∧
        k.init = initTemplate d.base false ∧ ∀ r, k.reps r ≠ none → ∃ i ∈ d.v.filter (fun x => decide (x ≠ id)), r = dec i := by
      intro k hk hi
      obtain ⟨a1, a2, a3, a4⟩ := h3 k hk
      exact ⟨a1, a2, a3, fun r hr => stay _ r (a4 r hr) fun hx => hr (by rw [hx, hv k hk hi])⟩
    have keepA : ∀ k, f.sets (setId true) = some k → id ∉ d.a → k.audio = true ∧ k.media = mediaTemplate d.base true ∧
        k.init = initTemplate d.base true ∧ ∀ r, k.reps r ≠ none → ∃ i ∈ d.a.filter (fun x => decide (x ≠ id)), r = dec i := by
      intro k hk hi
      obtain ⟨a1, a2, a3, a4⟩ := h4 k hk
      exact ⟨a1, a2, a3, fun r hr => stay _ r (a4 r hr) fun hx => hr (by rw [hx, ha k hk hi])⟩
    have dropV : ∀ k, (f.sets (setId false)).map (fun k => { k with reps := fun x => if x = dec id then none else k.reps x }) = some k →
        k.audio = false ∧ k.media = mediaTemplate d.base false ∧
        k.init = initTemplate d.base false ∧ ∀ r, k.reps r ≠ none → ∃ i ∈ d.v.filter (fun x => decide (x ≠ id)), r = dec i := by
      intro k hk
      obtain ⟨q, hs, rfl⟩ := Option.map_eq_some_iff.1 hk
      obtain ⟨a1, a2, a3, a4⟩ := h3 q hs
      refine ⟨a1, a2, a3, fun r hr => ?_⟩
      by_cases hx : r = dec id
      · simp [hx] at hr
      · simp only [hx, if_false] at hr
        exact stay _ r (a4 r hr) hx
    have dropA : ∀ k, (f.sets (setId true)).map (fun k => { k with reps := fun x => if x = dec id then none else k.reps x }) = some k →
        k.audio = true ∧ k.media = mediaTemplate d.base true ∧
        k.init = initTemplate d.base true ∧ ∀ r, k.reps r ≠ none → ∃ i ∈ d.a.filter (fun x => decide (x ≠ id)), r = dec i := by
      intro k hk
      obtain ⟨q, hs, rfl⟩ := Option.map_eq_some_iff.1 hk
      obtain ⟨a1, a2, a3, a4⟩ := h4 q hs
      refine ⟨a1, a2, a3, fun r hr => ?_⟩
      by_cases hx : r = dec id
      · simp [hx] at hr
      · simp only [hx, if_false] at hr
        exact stay _ r (a4 r hr) hx
    by_cases iv : id ∈ d.v <;> by_cases ia : id ∈ d.a <;>
      simp only [Dash.calls, iv, ia, true_or, or_true, or_self, if_true, if_false, List.nil_append, List.cons_append, List.foldl_cons,
        List.foldl_nil, Facts.after, Facts.at, Dash.readers] at hr ⊢
    · refine ⟨hr, fun x hx hy => ?_, fun k hk => dropV k ?_, fun k hk => dropA k ?_⟩
      · simp only [hx, hy, if_false]; exact h2 x hx hy
      · simpa only [hne, hne.symm, if_true, if_false] using hk
      · simpa only [hne, hne.symm, if_true, if_false] using hk
    · refine ⟨hr, fun x hx hy => ?_, fun k hk => dropV k ?_, fun k hk => keepA k ?_ ia⟩
      · simp only [hx, if_false]; exact h2 x hx hy
      · simpa only [if_true] using hk
      · simpa only [hne.symm, if_false] using hk
    · refine ⟨hr, fun x hx hy => ?_, fun k hk => keepV k ?_ iv, fun k hk => dropA k ?_⟩
      · simp only [hy, if_false]; exact h2 x hx hy
      · simpa only [hne, if_false] using hk
      · simpa only [if_true] using hk
    · exact ⟨hr, h2, fun k hk => keepV k hk iv, fun k hk => keepA k hk ia⟩
  | closedVideo id t r fps =>
    by_cases iv : id ∈ d.v
    · simp only [Dash.calls, iv, if_true, List.foldl_cons, List.foldl_nil, Dash.readers] at hr ⊢
      refine ⟨hr, fun x hx hy => ?_, fun k hk => ?_, fun k hk => ?_⟩
      · simp only [Facts.after, Facts.at, hx, if_false]; exact h2 x hx hy
      · simp only [Facts.after, Facts.at, if_true] at hk
        cases hs : f.sets (setId false) with
        | none =>
          rw [hs] at hk
          simp only [Known.template, Option.map_some, Option.some.injEq, Bool.false_eq_true, if_false] at hk
          subst hk
          refine ⟨rfl, rfl, rfl, fun x hx => ?_⟩
          simp only at hx
          by_cases he : x = dec id
          · exact ⟨id, iv, he⟩
          · simp [he] at hx
        | some q =>
          obtain ⟨a1, a2, a3, a4⟩ := h3 q hs
          rw [hs] at hk
          simp only [Known.template, Option.map_some, Option.some.injEq, a1, Bool.false_eq_true, if_false] at hk
          subst hk
          refine ⟨rfl, rfl, rfl, fun x hx => ?_⟩
          simp only at hx
          by_cases he : x = dec id
          · exact ⟨id, iv, he⟩
          · simp only [he, if_false] at hx; exact a4 x hx
      · simp only [Facts.after, Facts.at, hne.symm, if_false] at hk
        exact h4 k hk
    · simp only [Dash.calls, iv, if_false, List.foldl_nil, Dash.readers] at hr ⊢
      exact ⟨hr, h2, h3, h4⟩
  | closedAudio id t r =>
    by_cases ia : id ∈ d.a
    · simp only [Dash.calls, ia, if_true, List.foldl_cons, List.foldl_nil, Dash.readers] at hr ⊢
      refine ⟨hr, fun x hx hy => ?_, fun k hk => ?_, fun k hk => ?_⟩
      · simp only [Facts.after, Facts.at, hy, if_false]; exact h2 x hx hy
      · simp only [Facts.after, Facts.at, hne, if_false] at hk
        exact h3 k hk
      · simp only [Facts.after, Facts.at, if_true] at hk
        cases hs : f.sets (setId true) with
        | none =>
          rw [hs] at hk
          simp only [Known.template, Option.map_some, Option.some.injEq, if_true] at hk
          subst hk
          refine ⟨rfl, rfl, rfl, fun x hx => ?_⟩
          simp only at hx
          by_cases he : x = dec id
          · exact ⟨id, ia, he⟩
          · simp [he] at hx
        | some q =>
          obtain ⟨a1, a2, a3, a4⟩ := h4 q hs
          rw [hs] at hk
          simp only [Known.template, Option.map_some, Option.some.injEq, a1, if_true] at hk
          subst hk
          refine ⟨rfl, rfl, rfl, fun x hx => ?_⟩
          simp only at hx
          by_cases he : x = dec id
          · exact ⟨id, ia, he⟩
          · simp only [he, if_false] at hx; exact a4 x hx
    · simp only [Dash.calls, ia, if_false, List.foldl_nil, Dash.readers] at hr ⊢
      exact ⟨hr, h2, h3, h4⟩
  | write audio ts dur ok now =>
    by_cases hc : (if audio then d.a else d.v) ≠ [] ∧ (if audio then d.a else d.v).all ok = true
    · have hcalls : d.calls (.write audio ts dur ok now) = [.time (setId audio) ts dur, .write now] := by
        simp only [Dash.calls]; rw [if_pos hc]
      rw [hcalls] at hr ⊢
      have step : ∀ (x : Str) (k : Known), ((f.after (.time (setId audio) ts dur)).after (.write now)).sets x = some k →
          ∃ q, f.sets x = some q ∧ k.audio = q.audio ∧ k.media = q.media ∧ k.init = q.init ∧ k.reps = q.reps := by
        intro x k hk
        simp only [Facts.after, Facts.at] at hk
        split at hk
        · cases hs : f.sets x with
          | none => rw [hs] at hk; cases hk
          | some q =>
            rw [hs] at hk
            simp only [Option.map_some, Option.some.injEq] at hk
            subst hk
            exact ⟨q, rfl, rfl, rfl, rfl, rfl⟩
        · exact ⟨k, hk, rfl, rfl, rfl, rfl⟩
      refine ⟨hr, fun x hx hy => ?_, fun k hk => ?_, fun k hk => ?_⟩
      · have : x ≠ setId audio := by cases audio <;> assumption
        simp only [List.foldl_cons, List.foldl_nil, Facts.after, Facts.at, this, if_false]
        exact h2 x hx hy
      · obtain ⟨q, hq, b1, b2, b3, b4⟩ := step _ k hk
        rw [b1, b2, b3, b4]; exact h3 q hq
      · obtain ⟨q, hq, b1, b2, b3, b4⟩ := step _ k hk
        rw [b1, b2, b3, b4]; exact h4 q hq
    · have hcalls : d.calls (.write audio ts dur ok now) = [] := by simp only [Dash.calls]; rw [if_neg hc]
      rw [hcalls] at hr ⊢
      exact ⟨hr, h2, h3, h4⟩

theorem dash_step (d : Dash) (f : Facts) (h : Fits d f) (op : DashOp) :
    ∃ d' e, d.step op = .ok (d', e) ∧ Fits d' ((d.calls op).foldl Facts.after f) ∧ e.files = d.files op ∧
      d'.folder = d.folder ∧ d'.base = d.base ∧
      (∀ doc, e.doc = some doc → ∃ m, read doc = some m ∧ Says m ((d.calls op).foldl Facts.after f)) ∧
      ((∃ now, (d.calls op).getLast? = some (.write now)) ↔ e.doc.isSome = true) := by
  obtain ⟨s', ds, h1, h2, h3, h4⟩ := run_calls d.mpd f h.rel (d.calls op)
  refine ⟨{ d.readers op with mpd := s' }, { files := d.files op, doc := ds.getLast?.bind id }, ?_, fits_calls d f h op s' h2, rfl, ?_, ?_, h3, h4⟩
  · unfold Dash.step; rw [h1]; rfl
  · cases op <;> simp only [Dash.readers] <;> (repeat' split) <;> rfl
  · cases op <;> simp only [Dash.readers] <;> (repeat' split) <;> rfl

theorem dash_run (d : Dash) (f : Facts) (h : Fits d f) (ops : List DashOp) :
    ∃ d' es f', runOps Dash.step d ops = .ok (d', es) ∧ Fits d' f' ∧ d'.folder = d.folder ∧ d'.base = d.base := by
  induction ops generalizing d f with
  | nil => exact ⟨d, [], f, rfl, h, rfl, rfl⟩
  | cons op ops ih =>
    obtain ⟨d1, e, h1, h2, _, h3, h4, _⟩ := dash_step d f h op
    obtain ⟨d2, es, f', h5, h6, h7, h8⟩ := ih d1 _ h2
    exact ⟨d2, e :: es, f', by simp only [runOps, h1, Outcome.bind_ok, h5], h6, h7.trans h3, h8.trans h4⟩

theorem takeWhile_all {α : Type} {p : α → Bool} {l : List α} (h : l.all p = true) : l.takeWhile p = l := by
  induction l with
  | nil => rfl
  | cons x l ih =>
    simp only [List.all_cons, Bool.and_eq_true] at h
    rw [List.takeWhile_cons, if_pos h.1, ih h.2]

/-- **C80**: after any history, when a segment is listed, the manifest lists it last in its set, and for every representation described
there the address a player makes of the template is the name of a file written just before. -/
theorem listed_is_written (folder base : Str) (mb ms sd : Nat) (ops : List DashOp) (hb : '$' ∉ base) :
    ∃ d es, runOps Dash.step (Dash.init folder base mb ms sd) ops = .ok (d, es) ∧
    ∀ (audio : Bool) (ts dur : Nat) (ok : Nat → Bool) (now : Str), (if audio then d.a else d.v) ≠ [] → (if audio then d.a else d.v).all ok = true →
      ∃ d' e doc m, d.step (.write audio ts dur ok now) = .ok (d', e) ∧ e.doc = some doc ∧ read doc = some m ∧
      ∀ i, m.sets.lookup (setId audio) = some i →
        i.times.getLast? = some (ts, dur) ∧
        ∀ r ∈ i.reps, ∃ f ∈ e.files, (expand r.1 (dec ts) i.media).map (folder ++ ·) = some f.name := by
  obtain ⟨d, es, f, h1, h2, h3, h4⟩ := dash_run _ _ (fits_init folder base mb ms sd) ops
  refine ⟨d, es, h1, fun audio ts dur ok now hne hok => ?_⟩
  obtain ⟨d', e, g1, g2, g3, g4, g5, g6, g7⟩ := dash_step d f h2 (.write audio ts dur ok now)
  have hcalls : d.calls (.write audio ts dur ok now) = [.time (setId audio) ts dur, .write now] := by
    simp only [Dash.calls]; rw [if_pos ⟨hne, hok⟩]
  have hdoc := g7.1 ⟨now, by rw [hcalls]; rfl⟩
  obtain ⟨doc, hdoc⟩ := Option.isSome_iff_exists.1 hdoc
  obtain ⟨m, hm, hs⟩ := g6 doc hdoc
  refine ⟨d', e, doc, m, g1, hdoc, hm, fun i hi => ?_⟩
  rw [hcalls] at hs g2
  simp only [List.foldl_cons, List.foldl_nil] at hs g2
  cases hk : (((f.after (.time (setId audio) ts dur)).after (.write now)).sets (setId audio)) with
  | none => rw [hs.none _ hk] at hi; cases hi
  | some k =>
    obtain ⟨i', hi', hsay⟩ := hs.some _ k hk
    rw [hi] at hi'; cases hi'
    have hlast : k.times.getLast? = some (ts, dur) := by
      simp only [Facts.after, Facts.at, if_true] at hk
      cases hq : f.sets (setId audio) with
      | none => rw [hq] at hk; cases hk
      | some q =>
        rw [hq] at hk
        simp only [Option.map_some, Option.some.injEq] at hk
        subst hk
        have hbd : 2 ≤ f.bound := by rw [h2.rel.bound]; exact h2.rel.two
        simp only [lastOf]
        rw [List.getLast?_drop]
        rw [if_neg (by simp; omega)]
        simp
    refine ⟨by rw [hsay.times]; exact hlast, fun r hr => ?_⟩
    have hfits : k.media = mediaTemplate d'.base audio ∧ ∀ x, k.reps x ≠ none → ∃ j ∈ (if audio then d'.a else d'.v), x = dec j := by
      cases audio with
      | false => obtain ⟨_, b2, _, b4⟩ := g2.video k hk; exact ⟨b2, b4⟩
      | true => obtain ⟨_, b2, _, b4⟩ := g2.audio k hk; exact ⟨b2, b4⟩
    have hin : k.reps r.1 ≠ none := by
      rw [← hsay.reps]
      intro hc
      rw [List.lookup_eq_none_iff] at hc
      have := hc r hr
      simp at this
    obtain ⟨j, hj, he⟩ := hfits.2 r.1 hin
    have hsame : (if audio then d'.a else d'.v) = if audio then d.a else d.v := by
      unfold Dash.step at g1
      cases hr2 : runOps step d.mpd (d.calls (.write audio ts dur ok now)) with
      | ub => rw [hr2] at g1; cases g1
      | hang => rw [hr2] at g1; cases g1
      | ok q => rw [hr2] at g1; cases g1; rfl
    rw [hsame] at hj
    refine ⟨.segment (d.folder ++ d.base) j ts audio, ?_, ?_⟩
    · rw [g3]
      simp only [Dash.files]
      rw [takeWhile_all hok]
      exact List.mem_map.2 ⟨j, hj, rfl⟩
    · rw [hsay.media, hfits.1, he, g5, h4, h3]
      exact media_address folder base audio j ts hb

/-- **C80**: after any history, once a reader has closed a segment, the next manifest describes it as it then is, under the number of the
reader, and the address a player makes for its start is the name of its initial segment. -/
theorem closed_is_described (folder base : Str) (mb ms sd : Nat) (ops : List DashOp) (hb : '$' ∉ base) :
    ∃ d es, runOps Dash.step (Dash.init folder base mb ms sd) ops = .ok (d, es) ∧
    ∀ (audio : Bool) (id : Nat) (t : Int) (rv : VRep) (ra : ARep) (fps : Int), id ∈ (if audio then d.a else d.v) →
    ∃ d1 e1, d.step (if audio then .closedAudio id t ra else .closedVideo id t rv fps) = .ok (d1, e1) ∧ e1.doc = none ∧
    ∀ (other : Bool) (ts dur : Nat) (ok : Nat → Bool) (now : Str), (if other then d1.a else d1.v) ≠ [] →
      (if other then d1.a else d1.v).all ok = true →
      ∃ d2 e2 doc m i, d1.step (.write other ts dur ok now) = .ok (d2, e2) ∧ e2.doc = some doc ∧ read doc = some m ∧
        m.sets.lookup (setId audio) = some i ∧ i.timescale = t ∧
        i.reps.lookup (dec id) = some (if audio then .audio ra.codec ra.rate ra.channels ra.bandwidth
          else .video rv.codec rv.width rv.height rv.bandwidth) ∧
        (expand (dec id) (dec ts) i.init).map (folder ++ ·) = some (File.init (folder ++ base) id audio).name := by
  obtain ⟨d, es, f, h1, h2, h3, h4⟩ := dash_run _ _ (fits_init folder base mb ms sd) ops
  refine ⟨d, es, h1, fun audio id t rv ra fps hid => ?_⟩
  obtain ⟨d1, e1, g1, g2, g3, g4, g5, g6, g7⟩ := dash_step d f h2 (if audio then .closedAudio id t ra else .closedVideo id t rv fps)
  have hknow : ∃ k, ((d.calls (if audio then .closedAudio id t ra else .closedVideo id t rv fps)).foldl Facts.after f).sets (setId audio)
      = some k ∧ k.timescale = t ∧ k.reps (dec id) = some (if audio then .audio ra.codec ra.rate ra.channels ra.bandwidth
          else .video rv.codec rv.width rv.height rv.bandwidth) := by
    cases audio with
    | false =>
      simp only [Bool.false_eq_true, if_false] at hid ⊢
      simp only [Dash.calls, hid, if_true, List.foldl_cons, List.foldl_nil, Facts.after, Facts.at]
      cases hs : f.sets (setId false) with
      | none => exact ⟨_, rfl, rfl, by simp⟩
      | some q =>
        have := (h2.video q hs).1
        refine ⟨_, rfl, ?_, ?_⟩ <;> simp [this]
    | true =>
      simp only [if_true] at hid ⊢
      simp only [Dash.calls, hid, if_true, List.foldl_cons, List.foldl_nil, Facts.after, Facts.at]
      cases hs : f.sets (setId true) with
      | none => exact ⟨_, rfl, rfl, by simp⟩
      | some q =>
        have := (h2.audio q hs).1
        refine ⟨_, rfl, ?_, ?_⟩ <;> simp [this]
  have hnodoc : e1.doc = none := by
    cases he : e1.doc with
    | none => rfl
    | some x =>
      obtain ⟨now, hn⟩ := g7.2 (by rw [he]; rfl)
      cases audio <;> simp only [Bool.false_eq_true, if_false, if_true] at hid hn <;> simp [Dash.calls, hid] at hn
  refine ⟨d1, e1, g1, hnodoc, fun other ts dur ok now hne hok => ?_⟩
  obtain ⟨d2, e2, k1, k2, k3, k4, k5, k6, k7⟩ := dash_step d1 _ g2 (.write other ts dur ok now)
  have hcalls : d1.calls (.write other ts dur ok now) = [.time (setId other) ts dur, .write now] := by
    simp only [Dash.calls]; rw [if_pos ⟨hne, hok⟩]
  obtain ⟨doc, hdoc⟩ := Option.isSome_iff_exists.1 (k7.1 ⟨now, by rw [hcalls]; rfl⟩)
  obtain ⟨m, hm, hs⟩ := k6 doc hdoc
  obtain ⟨k, hk, hkt, hkr⟩ := hknow
  rw [hcalls] at hs k2
  have hafter : ∃ k', (([.time (setId other) ts dur, .write now] : List Op).foldl Facts.after
      ((d.calls (if audio then .closedAudio id t ra else .closedVideo id t rv fps)).foldl Facts.after f)).sets (setId audio) = some k' ∧
      k'.timescale = k.timescale ∧ k'.reps = k.reps := by
    generalize (d.calls (if audio then .closedAudio id t ra else .closedVideo id t rv fps)).foldl Facts.after f = q at hk
    simp only [List.foldl_cons, List.foldl_nil, Facts.after, Facts.at, hk]
    split
    · exact ⟨_, rfl, rfl, rfl⟩
    · exact ⟨_, rfl, rfl, rfl⟩
  obtain ⟨k', hk', b1, b2⟩ := hafter
  obtain ⟨i, hi, hsay⟩ := hs.some _ k' hk'
  refine ⟨d2, e2, doc, m, i, k1, hdoc, hm, hi, by rw [hsay.timescale, b1, hkt], by rw [hsay.reps, b2, hkr], ?_⟩
  have hinit : k'.init = initTemplate d2.base audio := by
    cases audio with
    | false => exact (k2.video k' hk').2.2.1
    | true => exact (k2.audio k' hk').2.2.1
  rw [hsay.init, hinit, k5, g5, h4]
  exact init_address folder base audio id ts hb

end Lms.Manifest
