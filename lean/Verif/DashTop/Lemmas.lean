import Verif.DashTop.Model

namespace Lms.DashTop

/-! ## What is seen and what is asked -/

/-- The contents of the files written for one stream, in order. -/
def files (k : Kind) (i : Nat) (es : List Eff) : List Bytes :=
  es.filterMap fun e => match e with
    | .file k' i' _ d => if k' = k ∧ i' = i then some d else none
    | _ => none

/-- The times under which the files of one stream were written. -/
def names (k : Kind) (i : Nat) (es : List Eff) : List Nat :=
  es.filterMap fun e => match e with
    | .file k' i' t _ => if k' = k ∧ i' = i then some t else none
    | _ => none

/-- What was entered in the timeline of a kind, in order. -/
def lists (k : Kind) (es : List Eff) : List (Nat × Nat) :=
  es.filterMap fun e => match e with
    | .listed k' t d => if k' = k then some (t, d) else none
    | _ => none

/-- The segments one stream's segmenter closed while the frames were handed to it. -/
def closedF (i : Nat) (fs : List Fr) : List Seg :=
  fs.filterMap fun f => if f.id = i ∧ f.managed.isSome = true ∧ f.initOk = true then f.made else none

/-- The segments one stream's segmenter closed in a row of rounds. -/
def closed (i : Nat) (rs : List Round) : List Seg := rs.flatMap fun r => closedF i r.frames

def grp (s : State) : Kind → Group
  | .video => s.v
  | .audio => s.a

def keys (g : Group) : List Nat := g.map Prod.fst

def pend (g : Group) (i : Nat) : Option Seg := (g.lookup i).bind Slot.seg

theorem files_append (k : Kind) (i : Nat) (a b : List Eff) : files k i (a ++ b) = files k i a ++ files k i b :=
  List.filterMap_append

theorem names_append (k : Kind) (i : Nat) (a b : List Eff) : names k i (a ++ b) = names k i a ++ names k i b :=
  List.filterMap_append

theorem lists_append (k : Kind) (a b : List Eff) : lists k (a ++ b) = lists k a ++ lists k b :=
  List.filterMap_append

theorem closed_cons (i : Nat) (r : Round) (rs : List Round) : closed i (r :: rs) = closedF i r.frames ++ closed i rs := by
  simp [closed]

/-! ## Groups -/

theorem keys_feed (g : Group) (id pts : Nat) (ans : Option Seg) : keys (g.feed id pts ans) = keys g := by
  simp only [keys, Group.feed, List.map_map]
  apply List.map_congr_left
  intro x _
  simp only [Function.comp]
  split <;> rfl

theorem lookup_feed (g : Group) (id pts i : Nat) (ans : Option Seg) :
    (g.feed id pts ans).lookup i = if i = id then (g.lookup i).map fun s => s.feed pts ans else g.lookup i := by
  induction g with
  | nil => simp [Group.feed]
  | cons x l ih =>
    obtain ⟨j, s⟩ := x
    have e : Group.feed ((j, s) :: l) id pts ans = (if j = id then (j, s.feed pts ans) else (j, s)) :: Group.feed l id pts ans := rfl
    rw [e]
    by_cases hj : j = id
    · rw [if_pos hj]
      simp only [List.lookup_cons]
      by_cases hi : i = j
      · subst hi; simp [hj]
      · have : (i == j) = false := by simp [hi]
        simp only [this]
        rw [ih]
    · rw [if_neg hj]
      simp only [List.lookup_cons]
      by_cases hi : i = j
      · subst hi; simp [hj]
      · have : (i == j) = false := by simp [hi]
        simp only [this]
        rw [ih]

theorem pend_feed (g : Group) (id pts i : Nat) (ans : Option Seg) (h : i ∈ keys g) :
    pend (g.feed id pts ans) i = if i = id then ans.or (pend g i) else pend g i := by
  simp only [pend, lookup_feed]
  by_cases hi : i = id
  · rw [if_pos hi, if_pos hi]
    have : ∃ s, g.lookup i = some s := by
      clear hi
      induction g with
      | nil => simp [keys] at h
      | cons x l ih =>
        obtain ⟨j, s⟩ := x
        simp only [List.lookup_cons]
        by_cases hij : i = j
        · subst hij; exact ⟨s, by simp⟩
        · have e : (i == j) = false := by simp [hij]
          simp only [e]
          simp only [keys, List.map_cons, List.mem_cons] at h
          exact ih (h.resolve_left hij)
    obtain ⟨s, hs⟩ := this
    rw [hs]
    cases ans with
    | none => simp [Slot.feed]
    | some a => simp [Slot.feed]
  · rw [if_neg hi, if_neg hi]

theorem mem_keys {g : Group} {x : Nat × Slot} (h : x ∈ g) : x.1 ∈ keys g := List.mem_map_of_mem h

theorem lookup_mem {g : Group} (hn : (keys g).Nodup) {x : Nat × Slot} (h : x ∈ g) : g.lookup x.1 = some x.2 := by
  induction g with
  | nil => simp at h
  | cons y l ih =>
    obtain ⟨j, s⟩ := y
    simp only [keys, List.map_cons, List.nodup_cons] at hn
    simp only [List.lookup_cons]
    rcases List.mem_cons.1 h with h | h
    · subst h; simp
    · have hne : x.1 ≠ j := fun e => hn.1 (e ▸ mem_keys h)
      have e : (x.1 == j) = false := by simp [hne]
      simp only [e]
      exact ih hn.2 h

theorem mem_of_key {g : Group} {i : Nat} (h : i ∈ keys g) : ∃ s, (i, s) ∈ g := by
  obtain ⟨x, hx, e⟩ := List.mem_map.1 h
  exact ⟨x.2, by rw [← e]; exact hx⟩

theorem complete_iff {g : Group} (hn : (keys g).Nodup) : g.complete = true ↔ ∀ i ∈ keys g, (pend g i).isSome = true := by
  simp only [Group.complete, List.all_eq_true]
  constructor
  · intro h i hi
    obtain ⟨s, hs⟩ := mem_of_key hi
    have := h _ hs
    simp only [pend, lookup_mem hn hs, Option.bind_some]
    exact this
  · intro h x hx
    have := h x.1 (mem_keys hx)
    simp only [pend, lookup_mem hn hx, Option.bind_some] at this
    exact this

/-! ## Writing -/

theorem keys_writeAll (k : Kind) (ok : Nat → Bool) (t : Nat) (g : Group) : keys (writeAll k ok t g).1 = keys g := by
  induction g with
  | nil => rfl
  | cons x l ih =>
    obtain ⟨j, s⟩ := x
    rw [writeAll]
    split
    · simp only [keys, List.map_cons] at ih ⊢; rw [ih]
    · rfl

theorem writeAll_other {k k' : Kind} (h : k' ≠ k) (ok : Nat → Bool) (t i : Nat) (g : Group) :
    files k i (writeAll k' ok t g).2.1 = [] ∧ names k i (writeAll k' ok t g).2.1 = [] := by
  induction g with
  | nil => exact ⟨rfl, rfl⟩
  | cons x l ih =>
    obtain ⟨j, s⟩ := x
    rw [writeAll]
    split
    · simp only [files, names, List.filterMap_cons] at ih ⊢
      simp only [h, false_and, if_false]
      exact ih
    · exact ⟨rfl, rfl⟩

theorem writeAll_absent (k : Kind) (ok : Nat → Bool) (t i : Nat) (g : Group) (h : i ∉ keys g) :
    files k i (writeAll k ok t g).2.1 = [] ∧ names k i (writeAll k ok t g).2.1 = [] := by
  induction g with
  | nil => exact ⟨rfl, rfl⟩
  | cons x l ih =>
    obtain ⟨j, s⟩ := x
    simp only [keys, List.map_cons, List.mem_cons, not_or] at h
    rw [writeAll]
    split
    · have := ih h.2
      have hj : ¬ j = i := fun e => h.1 e.symm
      simp only [files, names, List.filterMap_cons] at this ⊢
      simp only [hj, and_false, if_false]
      exact this
    · exact ⟨rfl, rfl⟩

theorem lists_writeAll (k k' : Kind) (ok : Nat → Bool) (t : Nat) (g : Group) : lists k (writeAll k' ok t g).2.1 = [] := by
  induction g with
  | nil => rfl
  | cons x l ih =>
    obtain ⟨j, s⟩ := x
    rw [writeAll]
    split
    · simp only [lists, List.filterMap_cons] at ih ⊢
      exact ih
    · rfl

/-- A stream's segment is either written and gone, or still there. -/
theorem writeAll_slot (k : Kind) (ok : Nat → Bool) (t i : Nat) (g : Group) (hn : (keys g).Nodup) (hi : i ∈ keys g) :
    (files k i (writeAll k ok t g).2.1 = [((pend g i).map Seg.data).getD []] ∧
      names k i (writeAll k ok t g).2.1 = [t] ∧ pend (writeAll k ok t g).1 i = none) ∨
    (files k i (writeAll k ok t g).2.1 = [] ∧ names k i (writeAll k ok t g).2.1 = [] ∧
      pend (writeAll k ok t g).1 i = pend g i ∧ (writeAll k ok t g).2.2 = false) := by
  induction g with
  | nil => simp [keys] at hi
  | cons x l ih =>
    obtain ⟨j, s⟩ := x
    simp only [keys, List.map_cons, List.nodup_cons] at hn
    rw [writeAll]
    by_cases hok : ok j = true
    · rw [if_pos hok]
      by_cases hij : i = j
      · subst hij
        have := writeAll_absent k ok t i l hn.1
        left
        simp only [files, names, List.filterMap_cons, and_self, if_true] at this ⊢
        refine ⟨?_, by rw [this.2], by simp [pend, List.lookup_cons]⟩
        rw [this.1]
        simp [pend, List.lookup_cons, Slot.bytes]
      · have hi' : i ∈ keys l := by
          simp only [keys, List.map_cons, List.mem_cons] at hi
          exact hi.resolve_left hij
        have e : (i == j) = false := by simp [hij]
        have hj : ¬ j = i := fun e => hij e.symm
        have := ih hn.2 hi'
        simp only [files, names, List.filterMap_cons, pend, List.lookup_cons, e] at this ⊢
        simp only [hj, and_false, if_false]
        exact this
    · rw [if_neg hok]
      right
      exact ⟨rfl, rfl, rfl, rfl⟩

theorem writeAll_ok (k : Kind) (ok : Nat → Bool) (t : Nat) (g : Group) (h : ∀ i ∈ keys g, ok i = true) :
    (writeAll k ok t g).2.2 = true := by
  induction g with
  | nil => rfl
  | cons x l ih =>
    obtain ⟨j, s⟩ := x
    rw [writeAll, if_pos (h j (by simp [keys]))]
    exact ih fun i hi => h i (by simp only [keys, List.map_cons, List.mem_cons] at hi ⊢; exact Or.inr hi)

theorem files_references (k : Kind) (i d : Nat) (g : Group) :
    files k i (references g d) = [] ∧ names k i (references g d) = [] ∧ lists k (references g d) = [] := by
  cases g with
  | nil => exact ⟨rfl, rfl, rfl⟩
  | cons x l =>
    simp only [references]
    split
    · simp only [files, names, lists, List.filterMap_map]
      refine ⟨?_, ?_, ?_⟩ <;> exact List.filterMap_eq_nil_iff.2 fun _ _ => rfl
    · exact ⟨rfl, rfl, rfl⟩

theorem files_listing (k k' : Kind) (i : Nat) (b : Bool) (t : Nat × Nat) :
    files k i (listing k' b t) = [] ∧ names k i (listing k' b t) = [] := by
  cases b <;> exact ⟨rfl, rfl⟩

theorem lists_listing (k k' : Kind) (b : Bool) (t : Nat × Nat) :
    lists k (listing k' b t) = if b = true ∧ k' = k then [t] else [] := by
  cases b
  · simp [listing, lists]
  · by_cases h : k' = k
    · simp [listing, lists, h]
    · simp [listing, lists, h]

/-! ## Invariant of the readers -/

structure Inv (s : State) : Prop where
  sv : (keys s.v).Pairwise (· < ·)
  sa : (keys s.a).Pairwise (· < ·)
  seg : ∀ i k, (s.segs.lookup i).map Segmenter.kind = some k ↔ i ∈ keys (grp s k)
  hv : s.hasVideo = !s.v.isEmpty
  conf : s.configured = false → s.segs = [] ∧ s.v = [] ∧ s.a = []
  off : ∀ x ∈ s.segs, x.2.off = s.offset

theorem pairwise_nodup {l : List Nat} (h : l.Pairwise (· < ·)) : l.Nodup :=
  h.imp fun hab => Nat.ne_of_lt hab

theorem Inv.nodup {s : State} (h : Inv s) (k : Kind) : (keys (grp s k)).Nodup := by
  cases k
  · exact pairwise_nodup h.sv
  · exact pairwise_nodup h.sa

theorem keys_insert_mem (g : Group) (id i : Nat) : i ∈ keys (g.insert id) ↔ i = id ∨ i ∈ keys g := by
  induction g with
  | nil => simp [Group.insert, keys]
  | cons x l ih =>
    simp only [Group.insert]
    split
    · simp [keys]
    · simp only [keys, List.map_cons, List.mem_cons] at ih ⊢
      rw [ih]
      constructor
      · rintro (h | h | h)
        · exact Or.inr (Or.inl h)
        · exact Or.inl h
        · exact Or.inr (Or.inr h)
      · rintro (h | h | h)
        · exact Or.inr (Or.inl h)
        · exact Or.inl h
        · exact Or.inr (Or.inr h)

theorem insert_sorted (g : Group) (id : Nat) (h : (keys g).Pairwise (· < ·)) (hn : id ∉ keys g) :
    (keys (g.insert id)).Pairwise (· < ·) := by
  induction g with
  | nil => simp [Group.insert, keys]
  | cons x l ih =>
    simp only [Group.insert]
    simp only [keys, List.map_cons, List.pairwise_cons, List.mem_cons, not_or] at h hn
    split
    · rename_i hlt
      simp only [keys, List.map_cons, List.pairwise_cons, List.mem_cons]
      refine ⟨?_, h⟩
      rintro a (rfl | ha)
      · exact hlt
      · exact Nat.lt_trans hlt (h.1 a ha)
    · rename_i hlt
      have := ih h.2 hn.2
      simp only [keys, List.map_cons, List.pairwise_cons] at this ⊢
      refine ⟨?_, this⟩
      intro a ha
      have hm : a ∈ keys (Group.insert l id) := ha
      rw [keys_insert_mem] at hm
      rcases hm with rfl | hm
      · omega
      · exact h.1 a hm

theorem keys_filter (g : Group) (id : Nat) : keys (g.filter fun x => x.1 != id) = (keys g).filter (· != id) := by
  simp only [keys, List.filter_map]
  rfl

theorem lookup_filter_ne {β : Type} (l : List (Nat × β)) (id i : Nat) :
    (l.filter fun x => x.1 != id).lookup i = if i = id then none else l.lookup i := by
  induction l with
  | nil => simp
  | cons x l ih =>
    obtain ⟨j, b⟩ := x
    simp only [List.filter_cons]
    by_cases hj : j = id
    · subst hj
      simp only [bne_self_eq_false]
      rw [if_neg (by simp), ih]
      by_cases hi : i = j
      · simp [hi]
      · have : (i == j) = false := by simp [hi]
        simp [hi, List.lookup_cons, this]
    · rw [if_pos (by simp [hj])]
      simp only [List.lookup_cons]
      by_cases hi : i = j
      · subst hi; simp [hj]
      · have : (i == j) = false := by simp [hi]
        simp only [this]
        exact ih

theorem lookup_map_off (l : List (Nat × Segmenter)) (t i : Nat) :
    ((l.map fun x => (x.1, { x.2 with off := t })).lookup i).map Segmenter.kind = (l.lookup i).map Segmenter.kind := by
  induction l with
  | nil => rfl
  | cons x l ih =>
    obtain ⟨j, b⟩ := x
    simp only [List.map_cons, List.lookup_cons]
    by_cases hi : i = j
    · subst hi; simp
    · have : (i == j) = false := by simp [hi]
      simp only [this]
      exact ih

theorem setOffset_frame (s : State) (t : Nat) :
    (setOffset s t).v = s.v ∧ (setOffset s t).a = s.a ∧ (setOffset s t).hasVideo = s.hasVideo ∧
    (setOffset s t).configured = s.configured ∧ (setOffset s t).segDur = s.segDur ∧
    (∀ i, ((setOffset s t).segs.lookup i).map Segmenter.kind = (s.segs.lookup i).map Segmenter.kind) := by
  rw [setOffset]
  split
  · exact ⟨rfl, rfl, rfl, rfl, rfl, fun i => lookup_map_off _ _ _⟩
  · exact ⟨rfl, rfl, rfl, rfl, rfl, fun _ => rfl⟩

theorem Inv.setOffset {s : State} (h : Inv s) (t : Nat) : Inv (setOffset s t) := by
  obtain ⟨hv, ha, hh, hc, _, hk⟩ := setOffset_frame s t
  refine ⟨by rw [hv]; exact h.sv, by rw [ha]; exact h.sa, ?_, by rw [hh, hv]; exact h.hv, ?_, ?_⟩
  · intro i k
    rw [hk, h.seg]
    cases k
    · simp only [grp, hv]
    · simp only [grp, ha]
  · intro e
    rw [hc] at e
    obtain ⟨h1, h2, h3⟩ := h.conf e
    refine ⟨?_, by rw [hv, h2], by rw [ha, h3]⟩
    rw [DashTop.setOffset]
    split
    · simp [h1]
    · exact h1
  · rw [DashTop.setOffset]
    split
    · intro x hx
      obtain ⟨y, _, rfl⟩ := List.mem_map.1 hx
      rfl
    · exact h.off

theorem isEmpty_keys {g g' : Group} (h : keys g' = keys g) : g'.isEmpty = g.isEmpty := by
  cases g <;> cases g' <;> simp [keys] at h ⊢

/-- A state with the same readers. -/
theorem Inv.of_keys {s : State} (h : Inv s) (v a : Group) (hv : keys v = keys s.v) (ha : keys a = keys s.a) :
    Inv { s with v := v, a := a } := by
  refine ⟨?_, ?_, ?_, ?_, ?_, h.off⟩
  · show (keys v).Pairwise _; rw [hv]; exact h.sv
  · show (keys a).Pairwise _; rw [ha]; exact h.sa
  · intro i k
    rw [h.seg]
    cases k
    · show i ∈ keys s.v ↔ i ∈ keys v; rw [hv]
    · show i ∈ keys s.a ↔ i ∈ keys a; rw [ha]
  · show s.hasVideo = !v.isEmpty
    rw [isEmpty_keys hv]; exact h.hv
  · intro e
    obtain ⟨h1, h2, h3⟩ := h.conf e
    rw [h2] at hv; rw [h3] at ha
    refine ⟨h1, ?_, ?_⟩
    · cases v with
      | nil => rfl
      | cons x l => simp [keys] at hv
    · cases a with
      | nil => rfl
      | cons x l => simp [keys] at ha

theorem keys_force (ans : Nat → Option Seg) (g : Group) : keys (forceAll ans g) = keys g := by
  induction g with
  | nil => rfl
  | cons x l ih =>
    obtain ⟨j, s⟩ := x
    rw [forceAll]
    split
    · rfl
    · simp only [keys, List.map_cons] at ih ⊢; rw [ih]

theorem Inv.generate {s : State} (h : Inv s) (k : Kind) (id pts : Nat) (ans : Option Seg) :
    Inv (generate s k id pts ans) := by
  cases k
  · exact h.of_keys (s.v.feed id pts ans) s.a (keys_feed _ _ _ _) rfl
  · rw [DashTop.generate]
    split
    · exact h
    · exact h.of_keys s.v (s.a.feed id pts ans) rfl (keys_feed _ _ _ _)

theorem Inv.frame {s : State} (h : Inv s) (f : Fr) : Inv (frame s f) := by
  rw [DashTop.frame]
  split
  · exact h
  · dsimp only
    split
    · exact h.setOffset _
    · split
      · exact (h.setOffset _).generate _ _ _ _
      · exact h.setOffset _

theorem Inv.frames {s : State} (h : Inv s) (fs : List Fr) : Inv (fs.foldl DashTop.frame s) := by
  induction fs generalizing s with
  | nil => exact h
  | cons f fs ih => exact ih (h.frame f)

theorem Inv.writeVideo {s : State} (h : Inv s) (force : Nat → Option Seg) (ok : Nat → Bool) :
    Inv (writeVideo s force ok).1 := by
  rw [DashTop.writeVideo]
  split
  · exact h
  · split
    · exact h
    · exact h.of_keys _ _ (keys_writeAll _ _ _ _) (keys_force _ _)

theorem Inv.writeAudio {s : State} (h : Inv s) (ok : Nat → Bool) : Inv (writeAudio s ok).1 := by
  rw [DashTop.writeAudio]
  split
  · exact h
  · split
    · exact h
    · exact h.of_keys s.v _ rfl (keys_writeAll _ _ _ _)

theorem Inv.round {s : State} (h : Inv s) (r : Round) : Inv (round s r).1 := by
  rw [DashTop.round]
  split
  · exact h
  · exact ((h.frames _).writeVideo _ _).writeAudio _

theorem Inv.init : Inv State.init := by
  refine ⟨by simp [State.init, keys], by simp [State.init, keys], ?_, rfl, fun _ => ⟨rfl, rfl, rfl⟩, by simp [State.init]⟩
  intro i k
  cases k <;> simp [State.init, grp, keys]

theorem Inv.add {s : State} (h : Inv s) (id : Nat) (q : Queue) : Inv (addReader s id q).1 := by
  rw [addReader]
  by_cases hc : s.configured = true
  · rw [if_neg (by simp [hc])]
    by_cases hl : (s.segs.lookup id).isSome = true
    · rw [if_pos hl]; exact h
    · rw [if_neg hl]
      have hnone : s.segs.lookup id = none := by
        cases hs : s.segs.lookup id with
        | none => rfl
        | some x => rw [hs] at hl; exact absurd rfl hl
      have habs : ∀ k, id ∉ keys (grp s k) := by
        intro k hk
        have := (h.seg id k).2 hk
        rw [hnone] at this
        simp at this
      split
      · exact h
      · refine ⟨insert_sorted _ _ h.sv (habs .video), h.sa, ?_, ?_, ?_, ?_⟩
        · intro i k
          by_cases hi : i = id
          · subst hi
            have e : (((i, { kind := .video, off := s.offset }) :: s.segs).lookup i).map Segmenter.kind = some Kind.video := by
              simp [List.lookup_cons]
            rw [show (({ s with segs := (i, { kind := .video, off := s.offset }) :: s.segs, v := s.v.insert i, hasVideo := true } : State).segs.lookup i) = ((i, { kind := .video, off := s.offset }) :: s.segs).lookup i from rfl, e]
            cases k
            · simp [grp, keys_insert_mem]
            · have := habs .audio
              simp [grp] at this ⊢
              exact this
          · have e : (i == id) = false := by simp [hi]
            have := h.seg i k
            simp only [List.lookup_cons, e]
            rw [this]
            cases k
            · simp [grp, keys_insert_mem, hi]
            · rfl
        · show true = _
          cases hs : s.v with
          | nil => rfl
          | cons x l => simp only [Group.insert]; split <;> rfl
        · intro e; rw [hc] at e; exact absurd e (by simp)
        · intro x hx
          rcases List.mem_cons.1 hx with rfl | hx
          · rfl
          · exact h.off x hx
      · refine ⟨h.sv, insert_sorted _ _ h.sa (habs .audio), ?_, h.hv, ?_, ?_⟩
        · intro i k
          by_cases hi : i = id
          · subst hi
            have e : (((i, { kind := .audio, off := s.offset }) :: s.segs).lookup i).map Segmenter.kind = some Kind.audio := by
              simp [List.lookup_cons]
            rw [show (({ s with segs := (i, { kind := .audio, off := s.offset }) :: s.segs, a := s.a.insert i } : State).segs.lookup i) = ((i, { kind := .audio, off := s.offset }) :: s.segs).lookup i from rfl, e]
            cases k
            · have := habs .video
              simp [grp] at this ⊢
              exact this
            · simp [grp, keys_insert_mem]
          · have e : (i == id) = false := by simp [hi]
            have := h.seg i k
            simp only [List.lookup_cons, e]
            rw [this]
            cases k
            · rfl
            · simp [grp, keys_insert_mem, hi]
        · intro e; rw [hc] at e; exact absurd e (by simp)
        · intro x hx
          rcases List.mem_cons.1 hx with rfl | hx
          · rfl
          · exact h.off x hx
  · rw [if_pos (by simp at hc; simp [hc])]; exact h

theorem Inv.del {s : State} (h : Inv s) (id : Nat) : Inv (delReader s id).1 := by
  rw [delReader]
  split
  · refine ⟨?_, ?_, ?_, ?_, ?_, ?_⟩
    · show (keys (s.v.filter _)).Pairwise _
      rw [keys_filter]; exact h.sv.filter _
    · show (keys (s.a.filter _)).Pairwise _
      rw [keys_filter]; exact h.sa.filter _
    · intro i k
      show ((s.segs.filter fun x => x.1 != id).lookup i).map Segmenter.kind = some k ↔ _
      rw [lookup_filter_ne]
      have hk := h.seg i k
      have e : keys (grp (delReader s id).1 k) = (keys (grp s k)).filter (· != id) := by
        rw [delReader]
        rw [if_pos (by assumption)]
        cases k <;> exact keys_filter _ _
      rw [delReader, if_pos (by assumption)] at e
      rw [e, List.mem_filter, ← hk]
      by_cases hi : i = id
      · simp [hi]
      · simp [hi]
    · show (if (s.v.filter _).isEmpty then false else s.hasVideo) = !(s.v.filter _).isEmpty
      split
      · rename_i e; rw [e]; rfl
      · rename_i e
        rw [h.hv]
        have e' : (s.v.filter fun x => x.1 != id).isEmpty = false := by simpa using e
        rw [e']
        cases hs : s.v with
        | nil => rw [hs] at e'; exact absurd e' (by simp)
        | cons x l => rfl
    · intro e
      obtain ⟨h1, h2, h3⟩ := h.conf e
      simp [h1, h2, h3]
    · intro x hx
      exact h.off x (List.mem_filter.1 hx).1
  · exact h

theorem Inv.step {s : State} (h : Inv s) (op : Op) : Inv (step s op).1 := by
  cases op with
  | configure d =>
    exact ⟨h.sv, h.sa, fun i k => by have := h.seg i k; cases k <;> exact this, h.hv, fun e => absurd e (by simp [DashTop.step, configure]), h.off⟩
  | add id q => exact h.add id q
  | del id => exact h.del id
  | round r => exact h.round r

theorem Inv.run {s : State} (h : Inv s) (ops : List Op) : Inv (run s ops).1 := by
  induction ops generalizing s with
  | nil => exact h
  | cons op ops ih => exact ih (h.step op)

end Lms.DashTop
