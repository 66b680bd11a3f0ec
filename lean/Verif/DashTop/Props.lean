import Verif.DashTop.Lemmas
import Mathlib.Data.List.Induction

namespace Lms.DashTop

/-! ## One round, seen by one kind of stream -/

def okOf (r : Round) : Kind → Nat → Bool
  | .video => r.okV
  | .audio => r.okA

/-- Audio streams are on their own when there is no video. -/
def Alone (s : State) (k : Kind) : Prop := k = .audio → s.v = []

def writeGrp (k : Kind) (ok : Nat → Bool) (g : Group) : Group × List Eff :=
  if g.isEmpty then (g, [])
  else if !g.complete then (g, [])
  else
    let t := headTime g
    let w := writeAll k ok t.1 g
    (w.1, w.2.1 ++ listing k w.2.2 t)

theorem frame_facts (s : State) (f : Fr) :
    (frame s f).configured = s.configured ∧ (frame s f).segDur = s.segDur ∧ (frame s f).hasVideo = s.hasVideo ∧
    keys (frame s f).v = keys s.v ∧ keys (frame s f).a = keys s.a := by
  rw [frame]
  split
  · exact ⟨rfl, rfl, rfl, rfl, rfl⟩
  · obtain ⟨hv, ha, hh, hc, hd, _⟩ := setOffset_frame s f.time
    have base : (setOffset s f.time).configured = s.configured ∧ (setOffset s f.time).segDur = s.segDur ∧
        (setOffset s f.time).hasVideo = s.hasVideo ∧ keys (setOffset s f.time).v = keys s.v ∧
        keys (setOffset s f.time).a = keys s.a := ⟨hc, hd, hh, by rw [hv], by rw [ha]⟩
    dsimp only
    split
    · exact base
    · rename_i sg _ pts _
      split
      · rw [generate.eq_def]
        split
        · exact ⟨hc, hd, hh, by show keys (Group.feed _ _ _ _) = _; rw [keys_feed, hv], by rw [← ha]⟩
        · split
          · exact base
          · exact ⟨hc, hd, hh, by rw [← hv], by show keys (Group.feed _ _ _ _) = _; rw [keys_feed, ha]⟩
      · exact base

theorem frames_facts (s : State) (fs : List Fr) :
    (fs.foldl frame s).configured = s.configured ∧ (fs.foldl frame s).segDur = s.segDur ∧
    (fs.foldl frame s).hasVideo = s.hasVideo ∧
    keys (fs.foldl frame s).v = keys s.v ∧ keys (fs.foldl frame s).a = keys s.a := by
  induction fs generalizing s with
  | nil => exact ⟨rfl, rfl, rfl, rfl, rfl⟩
  | cons f fs ih =>
    obtain ⟨h1, h2, h3, h4, h5⟩ := frame_facts s f
    obtain ⟨g1, g2, g3, g4, g5⟩ := ih (frame s f)
    exact ⟨g1.trans h1, g2.trans h2, g3.trans h3, g4.trans h4, g5.trans h5⟩

theorem keys_nil {g : Group} (h : keys g = []) : g = [] := by
  cases g with
  | nil => rfl
  | cons x l => simp [keys] at h

theorem Alone.frame {s : State} {k : Kind} (h : Alone s k) (f : Fr) : Alone (frame s f) k := by
  intro hk
  apply keys_nil
  rw [(frame_facts s f).2.2.2.1, h hk]; rfl

theorem Alone.frames {s : State} {k : Kind} (h : Alone s k) (fs : List Fr) : Alone (fs.foldl DashTop.frame s) k := by
  induction fs generalizing s with
  | nil => exact h
  | cons f fs ih => exact ih (h.frame f)

theorem keys_grp_frames (s : State) (fs : List Fr) (k : Kind) : keys (grp (fs.foldl frame s) k) = keys (grp s k) := by
  obtain ⟨_, _, _, h4, h5⟩ := frames_facts s fs
  cases k
  · exact h4
  · exact h5

/-- What one frame does to a stream's pending segment. -/
theorem frame_pend {s : State} (h : Inv s) {k : Kind} (ha : Alone s k) {i : Nat} (hi : i ∈ keys (grp s k)) (f : Fr) :
    pend (grp (frame s f) k) i = ((closedF i [f]).getLast?).or (pend (grp s k) i) := by
  obtain ⟨hv, hab, hh, _, _, _⟩ := setOffset_frame s f.time
  have hg : grp (setOffset s f.time) k = grp s k := by cases k <;> [exact hv; exact hab]
  rw [frame]
  cases hl : s.segs.lookup f.id with
  | none =>
    have hne : ¬ f.id = i := by
      rintro rfl
      have := (h.seg f.id k).2 hi
      rw [hl] at this
      simp at this
    simp [closedF, hne]
  | some sg =>
    have hsg : f.id = i → sg.kind = k := by
      rintro rfl
      have := (h.seg f.id k).2 hi
      rw [hl] at this
      simpa using this
    dsimp only
    cases hm : f.managed with
    | none => simp [closedF, hm, hg]
    | some pts =>
      dsimp only
      by_cases hok : f.initOk = true
      · rw [if_pos hok]
        by_cases hid : f.id = i
        · have hkk := hsg hid
          rw [hkk]
          have e : (closedF i [f]).getLast? = f.made := by
            simp only [closedF, List.filterMap_cons, List.filterMap_nil, hid, hm, hok, Option.isSome_some, and_self, if_true]
            cases f.made <;> rfl
          rw [e]
          have hi' : i ∈ keys (grp (setOffset s f.time) k) := by rw [hg]; exact hi
          have key : grp (generate (setOffset s f.time) k f.id pts f.made) k =
              (grp (setOffset s f.time) k).feed f.id pts f.made := by
            cases k
            · rfl
            · have : (setOffset s f.time).hasVideo = false := by
                rw [hh, h.hv, ha rfl]; rfl
              simp [generate, this, grp]
          rw [key, pend_feed _ _ _ _ _ hi', if_pos hid.symm, hg]
        · have e : closedF i [f] = [] := by simp [closedF, hid]
          rw [e]
          have hi' : i ∈ keys (grp (setOffset s f.time) k) := by rw [hg]; exact hi
          have hii : ¬ i = f.id := fun e => hid e.symm
          show _ = pend (grp s k) i
          rw [← hg]
          rw [generate.eq_def]
          split
          · cases k
            · exact (pend_feed (setOffset s f.time).v _ _ _ _ hi').trans (if_neg hii)
            · rfl
          · split
            · rfl
            · cases k
              · rfl
              · exact (pend_feed (setOffset s f.time).a _ _ _ _ hi').trans (if_neg hii)
      · rw [if_neg hok, hg]
        simp [closedF, hok]

theorem frames_pend {s : State} (h : Inv s) {k : Kind} (ha : Alone s k) {i : Nat} (hi : i ∈ keys (grp s k)) (fs : List Fr) :
    pend (grp (fs.foldl frame s) k) i = ((closedF i fs).getLast?).or (pend (grp s k) i) := by
  induction fs generalizing s with
  | nil => simp [closedF]
  | cons f fs ih =>
    have hi' : i ∈ keys (grp (frame s f) k) := by
      have := keys_grp_frames s [f] k
      simp only [List.foldl_cons, List.foldl_nil] at this
      rw [this]; exact hi
    have e : closedF i (f :: fs) = closedF i [f] ++ closedF i fs := by
      simp only [closedF]
      rw [← List.filterMap_append]; rfl
    show pend (grp (fs.foldl frame (frame s f)) k) i = _
    rw [ih (h.frame f) (ha.frame f) hi', frame_pend h ha hi f, e, List.getLast?_append]
    cases (closedF i fs).getLast? <;> rfl

theorem writeVideo_grp (s : State) (force : Nat → Option Seg) (ok : Nat → Bool) :
    (writeVideo s force ok).1.v = (writeGrp .video ok s.v).1 ∧
    ∃ refs, (writeVideo s force ok).2 = refs ++ (writeGrp .video ok s.v).2 ∧
      (∀ i, files .video i refs = [] ∧ names .video i refs = []) ∧ lists .video refs = [] := by
  rw [writeVideo, writeGrp]
  by_cases h1 : s.v.isEmpty = true
  · rw [if_pos h1, if_pos h1]
    exact ⟨rfl, [], rfl, fun _ => ⟨rfl, rfl⟩, rfl⟩
  · rw [if_neg h1, if_neg h1]
    by_cases h2 : (!s.v.complete) = true
    · rw [if_pos h2, if_pos h2]
      exact ⟨rfl, [], rfl, fun _ => ⟨rfl, rfl⟩, rfl⟩
    · rw [if_neg h2, if_neg h2]
      exact ⟨rfl, references s.v s.segDur, by dsimp only; rw [List.append_assoc],
        fun i => ⟨(files_references _ _ _ _).1, (files_references _ _ _ _).2.1⟩, (files_references .video 0 _ _).2.2⟩

theorem writeAudio_grp (s : State) (ok : Nat → Bool) :
    writeAudio s ok = ({ s with a := (writeGrp .audio ok s.a).1 }, (writeGrp .audio ok s.a).2) := by
  rw [writeAudio, writeGrp]
  by_cases h1 : s.a.isEmpty = true
  · rw [if_pos h1, if_pos h1]
  · rw [if_neg h1, if_neg h1]
    by_cases h2 : (!s.a.complete) = true
    · rw [if_pos h2, if_pos h2]
    · rw [if_neg h2, if_neg h2]

theorem round_grp {s : State} {k : Kind} (hc : s.configured = true) (ha : Alone s k) (r : Round) :
    grp (round s r).1 k = (writeGrp k (okOf r k) (grp (r.frames.foldl frame s) k)).1 ∧
    (∀ i, files k i (round s r).2 = files k i (writeGrp k (okOf r k) (grp (r.frames.foldl frame s) k)).2) ∧
    (∀ i, names k i (round s r).2 = names k i (writeGrp k (okOf r k) (grp (r.frames.foldl frame s) k)).2) ∧
    lists k (round s r).2 = lists k (writeGrp k (okOf r k) (grp (r.frames.foldl frame s) k)).2 := by
  rw [round, if_neg (by simp [hc])]
  dsimp only
  obtain ⟨s1, hs1⟩ : ∃ s1, s1 = r.frames.foldl frame s := ⟨_, rfl⟩
  have ha1 : Alone s1 k := hs1 ▸ ha.frames r.frames
  rw [← hs1]
  clear hs1 ha hc
  cases k
  · have haud : ∀ (x : State), grp (writeAudio x r.okA).1 .video = x.v ∧
        (∀ i, files .video i (writeAudio x r.okA).2 = [] ∧ names .video i (writeAudio x r.okA).2 = []) ∧
        lists .video (writeAudio x r.okA).2 = [] := by
      intro x
      rw [writeAudio]
      split
      · exact ⟨rfl, fun i => ⟨rfl, rfl⟩, rfl⟩
      · split
        · exact ⟨rfl, fun i => ⟨rfl, rfl⟩, rfl⟩
        · refine ⟨rfl, fun i => ?_, ?_⟩
          · dsimp only
            rw [files_append, names_append]
            have := writeAll_other (k := .video) (k' := .audio) (by simp) r.okA (headTime x.a).1 i x.a
            rw [this.1, this.2, (files_listing .video .audio i _ _).1, (files_listing .video .audio i _ _).2]
            exact ⟨rfl, rfl⟩
          · dsimp only
            rw [lists_append, lists_writeAll, lists_listing]
            simp
    have h := haud (writeVideo s1 r.force r.okV).1
    obtain ⟨h1, refs, h2, h3, h4⟩ := writeVideo_grp s1 r.force r.okV
    refine ⟨h.1.trans h1, fun i => ?_, fun i => ?_, ?_⟩
    · rw [files_append, (h.2.1 i).1, List.append_nil, h2, files_append, (h3 i).1]; rfl
    · rw [names_append, (h.2.1 i).2, List.append_nil, h2, names_append, (h3 i).2]; rfl
    · rw [lists_append, h.2.2, List.append_nil, h2, lists_append, h4]; rfl
  · have hv : s1.v = [] := ha1 rfl
    have e : writeVideo s1 r.force r.okV = (s1, []) := by rw [writeVideo, if_pos (by simp [hv])]
    rw [e]
    have w := writeAudio_grp s1 r.okA
    dsimp only
    rw [w]
    exact ⟨rfl, fun i => by simp [grp, okOf], fun i => by simp [grp, okOf], by simp [grp, okOf]⟩

theorem round_facts (s : State) (r : Round) :
    (round s r).1.configured = s.configured ∧ keys (round s r).1.v = keys s.v ∧ keys (round s r).1.a = keys s.a := by
  rw [round]
  split
  · exact ⟨rfl, rfl, rfl⟩
  · dsimp only
    obtain ⟨h1, _, _, h4, h5⟩ := frames_facts s r.frames
    obtain ⟨s1, hs1⟩ : ∃ s1, s1 = r.frames.foldl frame s := ⟨_, rfl⟩
    rw [← hs1] at h1 h4 h5 ⊢
    have hw : (writeVideo s1 r.force r.okV).1.configured = s1.configured ∧
        keys (writeVideo s1 r.force r.okV).1.v = keys s1.v ∧ keys (writeVideo s1 r.force r.okV).1.a = keys s1.a := by
      rw [writeVideo]
      split
      · exact ⟨rfl, rfl, rfl⟩
      · split
        · exact ⟨rfl, rfl, rfl⟩
        · exact ⟨rfl, keys_writeAll _ _ _ _, keys_force _ _⟩
    have hx : ∀ x : State, (writeAudio x r.okA).1.configured = x.configured ∧
        keys (writeAudio x r.okA).1.v = keys x.v ∧ keys (writeAudio x r.okA).1.a = keys x.a := by
      intro x
      rw [writeAudio]
      split
      · exact ⟨rfl, rfl, rfl⟩
      · split
        · exact ⟨rfl, rfl, rfl⟩
        · exact ⟨rfl, rfl, keys_writeAll _ _ _ _⟩
    obtain ⟨a1, a2, a3⟩ := hx (writeVideo s1 r.force r.okV).1
    exact ⟨a1.trans (hw.1.trans h1), a2.trans (hw.2.1.trans h4), a3.trans (hw.2.2.trans h5)⟩

theorem Alone.round {s : State} {k : Kind} (h : Alone s k) (r : Round) : Alone (round s r).1 k := by
  intro hk
  apply keys_nil
  rw [(round_facts s r).2.1, h hk]; rfl

theorem keys_grp_round (s : State) (r : Round) (k : Kind) : keys (grp (DashTop.round s r).1 k) = keys (grp s k) := by
  cases k
  · exact (round_facts s r).2.1
  · exact (round_facts s r).2.2

/-- Rounds without changes of readers or configuration. -/
def rounds (s : State) (rs : List Round) : State × List Eff := run s (rs.map Op.round)

theorem rounds_cons (s : State) (r : Round) (rs : List Round) :
    rounds s (r :: rs) = ((rounds (round s r).1 rs).1, (round s r).2 ++ (rounds (round s r).1 rs).2) := rfl

theorem rounds_snoc (s : State) (rs : List Round) (r : Round) :
    rounds s (rs ++ [r]) = ((round (rounds s rs).1 r).1, (rounds s rs).2 ++ (round (rounds s rs).1 r).2) := by
  induction rs generalizing s with
  | nil => simp [rounds_cons, rounds, run, step]
  | cons x rs ih =>
    rw [List.cons_append, rounds_cons, ih, rounds_cons]
    simp [List.append_assoc]

theorem Inv.rounds {s : State} (h : Inv s) (rs : List Round) : Inv (rounds s rs).1 := h.run _

theorem rounds_facts (s : State) (rs : List Round) (k : Kind) :
    (rounds s rs).1.configured = s.configured ∧ keys (grp (rounds s rs).1 k) = keys (grp s k) ∧
    (Alone s k → Alone (rounds s rs).1 k) := by
  induction rs generalizing s with
  | nil => exact ⟨rfl, rfl, id⟩
  | cons r rs ih =>
    obtain ⟨h1, h2, h3⟩ := ih (round s r).1
    exact ⟨h1.trans (round_facts s r).1, h2.trans (keys_grp_round s r k), fun h => h3 (h.round r)⟩

/-! ## Every file is a segment of its stream, in order -/

theorem getLast_sublist {α : Type} (l : List α) (o : Option α) : (l.getLast?.or o).toList.Sublist (o.toList ++ l) := by
  cases hl : l.getLast? with
  | none =>
    have : l = [] := by simpa using hl
    subst this; simp
  | some x =>
    have hx : [x].Sublist l := by
      rw [List.singleton_sublist]
      exact List.mem_of_getLast? hl
    exact hx.trans (List.sublist_append_right o.toList l)

theorem writeGrp_slot (k : Kind) (ok : Nat → Bool) (g : Group) (hn : (keys g).Nodup) (i : Nat) (hi : i ∈ keys g) :
    files k i (writeGrp k ok g).2 ++ ((pend (writeGrp k ok g).1 i).toList.map Seg.data) =
      (pend g i).toList.map Seg.data := by
  rw [writeGrp]
  split
  · rfl
  · split
    · rfl
    · rename_i hcomp
      have hc : g.complete = true := by simpa using hcomp
      obtain ⟨x, hx⟩ := Option.isSome_iff_exists.1 ((complete_iff hn).1 hc i hi)
      dsimp only
      rw [files_append, (files_listing _ _ _ _ _).1, List.append_nil]
      rcases writeAll_slot k ok (headTime g).1 i g hn hi with ⟨h1, _, h3⟩ | ⟨h1, _, h3, _⟩
      · rw [h1, h3, hx]; rfl
      · rw [h1, h3]; rfl

theorem rounds_sublist {s : State} (h : Inv s) (hc : s.configured = true) {k : Kind} (ha : Alone s k) {i : Nat}
    (hi : i ∈ keys (grp s k)) (rs : List Round) :
    (files k i (rounds s rs).2 ++ (pend (grp (rounds s rs).1 k) i).toList.map Seg.data).Sublist
      ((pend (grp s k) i).toList.map Seg.data ++ (closed i rs).map Seg.data) := by
  induction rs generalizing s with
  | nil => simp [rounds, run, files, closed]
  | cons r rs ih =>
    have hi' : i ∈ keys (grp (round s r).1 k) := by rw [keys_grp_round]; exact hi
    have := ih (h.round r) ((round_facts s r).1.trans hc) (ha.round r) hi'
    obtain ⟨e1, e2, _, _⟩ := round_grp hc ha r
    rw [rounds_cons, closed_cons, files_append, List.append_assoc]
    refine (List.Sublist.append (List.Sublist.refl _) this).trans ?_
    rw [e1, e2, ← List.append_assoc, List.map_append, ← List.append_assoc]
    apply List.Sublist.append _ (List.Sublist.refl _)
    have hn : (keys (grp (r.frames.foldl frame s) k)).Nodup := by
      rw [keys_grp_frames]; exact h.nodup k
    rw [writeGrp_slot k _ _ hn i (by rw [keys_grp_frames]; exact hi), frames_pend h ha hi]
    rw [← List.map_append]
    exact (getLast_sublist _ _).map _

/-- No reader of the kind has the id. -/
theorem rounds_absent {s : State} (hc : s.configured = true) {k : Kind} (ha : Alone s k) {i : Nat}
    (hi : i ∉ keys (grp s k)) (rs : List Round) : files k i (rounds s rs).2 = [] := by
  induction rs generalizing s with
  | nil => rfl
  | cons r rs ih =>
    rw [rounds_cons, files_append, ih ((round_facts s r).1.trans hc) (ha.round r) (by rw [keys_grp_round]; exact hi)]
    obtain ⟨_, e2, _, _⟩ := round_grp hc ha r
    rw [e2, List.append_nil, writeGrp]
    split
    · rfl
    · split
      · rfl
      · dsimp only
        rw [files_append, (files_listing _ _ _ _ _).1, List.append_nil]
        exact (writeAll_absent _ _ _ _ _ (by rw [keys_grp_frames]; exact hi)).1

/-- Configuration and readers, before any frame. -/
def Setup : Op → Prop
  | .round _ => False
  | _ => True

theorem mem_insert_slot {g : Group} {id : Nat} {x : Nat × Slot} (h : x ∈ g.insert id) : x ∈ g ∨ x.2 = Slot.new := by
  induction g with
  | nil =>
    simp only [Group.insert, List.mem_singleton] at h
    right; rw [h]
  | cons y l ih =>
    simp only [Group.insert] at h
    split at h
    · rcases List.mem_cons.1 h with rfl | h
      · right; rfl
      · left; exact h
    · rcases List.mem_cons.1 h with rfl | h
      · left; exact List.mem_cons_self
      · rcases ih h with h | h
        · left; exact List.mem_cons_of_mem _ h
        · right; exact h

theorem setup_slots {s : State} (h0 : ∀ k, ∀ x ∈ grp s k, x.2 = Slot.new) (ops : List Op) (h : ∀ op ∈ ops, Setup op) :
    (∀ k, ∀ x ∈ grp (run s ops).1 k, x.2 = Slot.new) ∧ (run s ops).2 = [] := by
  induction ops generalizing s with
  | nil => exact ⟨h0, rfl⟩
  | cons op ops ih =>
    have hop := h op List.mem_cons_self
    have main : (∀ k, ∀ x ∈ grp (step s op).1 k, x.2 = Slot.new) ∧ (step s op).2 = [] := by
      cases op with
      | configure d => exact ⟨fun k x hx => h0 k x (by cases k <;> exact hx), rfl⟩
      | add id q =>
        refine ⟨?_, rfl⟩
        show ∀ k, ∀ x ∈ grp (addReader s id q).1 k, x.2 = Slot.new
        rw [addReader]
        split
        · exact h0
        · split
          · exact h0
          · split
            · exact h0
            · intro k x hx
              cases k
              · rcases mem_insert_slot hx with hx | hx
                · exact h0 .video x hx
                · exact hx
              · exact h0 .audio x hx
            · intro k x hx
              cases k
              · exact h0 .video x hx
              · rcases mem_insert_slot hx with hx | hx
                · exact h0 .audio x hx
                · exact hx
      | del id =>
        refine ⟨?_, rfl⟩
        show ∀ k, ∀ x ∈ grp (delReader s id).1 k, x.2 = Slot.new
        rw [delReader]
        split
        · intro k x hx
          cases k
          · exact h0 .video x (List.mem_filter.1 hx).1
          · exact h0 .audio x (List.mem_filter.1 hx).1
        · exact h0
      | round r => exact absurd hop (by simp [Setup])
    obtain ⟨a, b⟩ := ih main.1 fun op hop => h op (List.mem_cons_of_mem _ hop)
    refine ⟨a, ?_⟩
    show (step s op).2 ++ _ = []
    rw [main.2, b]; rfl

/-- The state after a configuration phase. -/
def ready (ops : List Op) : State := (run State.init ops).1

theorem ready_inv (ops : List Op) : Inv (ready ops) := Inv.init.run ops

theorem ready_pend (ops : List Op) (h : ∀ op ∈ ops, Setup op) (k : Kind) (i : Nat) : pend (grp (ready ops) k) i = none := by
  have hs := (setup_slots (s := State.init) (fun k x hx => by cases k <;> simp [State.init, grp] at hx) ops h).1 k
  obtain ⟨g, hg⟩ : ∃ g, g = grp (ready ops) k := ⟨_, rfl⟩
  have hs' : ∀ x ∈ g, x.2 = Slot.new := by rw [hg]; exact hs
  rw [← hg]
  clear hs hg
  induction g with
  | nil => rfl
  | cons x l ih =>
    obtain ⟨j, sl⟩ := x
    have hx := hs' (j, sl) List.mem_cons_self
    have := ih fun x hx => hs' x (List.mem_cons_of_mem _ hx)
    simp only [pend, List.lookup_cons] at this ⊢
    split
    · simp only at hx; rw [hx]; rfl
    · exact this

/-- **C67 (files are segments).**  Whatever the readers and the frames, the files written for a video stream, or
for an audio stream when there is no video, are segments its segmenter closed, each at most once and in their
order. -/
theorem files_are_segments_in_order (ops : List Op) (hs : ∀ op ∈ ops, Setup op) (k : Kind)
    (ha : k = .audio → (ready ops).v = []) (rs : List Round) (i : Nat) :
    (files k i (rounds (ready ops) rs).2).Sublist ((closed i rs).map Seg.data) := by
  by_cases hc : (ready ops).configured = true
  · by_cases hi : i ∈ keys (grp (ready ops) k)
    · have := rounds_sublist (ready_inv ops) hc ha hi rs
      rw [ready_pend ops hs] at this
      exact (List.sublist_append_left _ _).trans (by simpa using this)
    · rw [rounds_absent hc ha hi]; exact List.nil_sublist _
  · have hc' : (ready ops).configured = false := by simpa using hc
    have : ∀ (rs : List Round) (s : State), s.configured = false → (rounds s rs).2 = [] := by
      intro rs
      induction rs with
      | nil => intro s _; rfl
      | cons r rs ih =>
        intro s hs
        have e : round s r = (s, []) := by rw [round, if_pos (by simp [hs])]
        rw [rounds_cons, e]
        exact ih s hs
    rw [this rs _ hc']
    exact List.nil_sublist _

/-! ## Streams in step -/

/-- No stream closes a segment in a round unless, before that round, all streams had closed as many as this
stream's segments but the last. -/
def InStep (ids : List Nat) (rs : List Round) : Prop :=
  ∀ p r q, rs = p ++ r :: q → ∀ i ∈ ids, ∀ j ∈ ids, (closed i (p ++ [r])).length ≤ (closed j p).length + 1

theorem closed_snoc (i : Nat) (rs : List Round) (r : Round) : closed i (rs ++ [r]) = closed i rs ++ closedF i r.frames := by
  simp [closed]

theorem headTime_eq {g : Group} {h : Nat} {t : List Nat} (e : keys g = h :: t) :
    headTime g = (((pend g h).map Seg.ts).getD 0, ((pend g h).map Seg.dur).getD 0) := by
  cases g with
  | nil => simp [keys] at e
  | cons x l =>
    simp only [keys, List.map_cons, List.cons.injEq] at e
    obtain ⟨e, _⟩ := e
    subst e
    obtain ⟨j, sl⟩ := x
    simp [headTime, pend, List.lookup_cons]

/-- What has been written after `n` sets. -/
structure Written (k : Kind) (ids : List Nat) (first : Nat) (rs : List Round) (q : State × List Eff) (n : Nat) : Prop where
  each : ∀ i ∈ ids, n ≤ (closed i rs).length ∧ (closed i rs).length ≤ n + 1 ∧
    pend (grp q.1 k) i = (closed i rs)[n]? ∧
    files k i q.2 = ((closed i rs).take n).map Seg.data ∧
    names k i q.2 = ((closed first rs).take n).map Seg.ts
  least : ∃ j ∈ ids, (closed j rs).length = n
  listed : lists k q.2 = ((closed first rs).take n).map fun x => (x.ts, x.dur)

theorem written {s : State} (h : Inv s) (hc : s.configured = true) {k : Kind} (ha : Alone s k)
    {first : Nat} {others : List Nat} (hk : keys (grp s k) = first :: others)
    (hfresh : ∀ i ∈ keys (grp s k), pend (grp s k) i = none) (rs : List Round)
    (hok : ∀ r ∈ rs, ∀ i ∈ keys (grp s k), okOf r k i = true) (hstep : InStep (keys (grp s k)) rs) :
    ∃ n, Written k (keys (grp s k)) first rs (rounds s rs) n := by
  obtain ⟨ids, hids⟩ : ∃ ids, ids = keys (grp s k) := ⟨_, rfl⟩
  rw [← hids] at hk hfresh hok hstep ⊢
  have hfirst : first ∈ ids := by rw [hk]; exact List.mem_cons_self
  induction rs using List.reverseRecOn with
  | nil =>
    refine ⟨0, ?_, ⟨first, hfirst, rfl⟩, rfl⟩
    intro i hi
    refine ⟨Nat.zero_le _, by simp [closed], ?_, rfl, rfl⟩
    show pend (grp s k) i = none
    exact hfresh i hi
  | append_singleton rs r ih =>
    obtain ⟨n, hn, ⟨j0, hj0, hlj0⟩, hl⟩ := ih
      (fun p x q e => by
        have := hstep p x (q ++ [r]) (by rw [e]; simp)
        exact this)
      (fun r' hr' => hok r' (List.mem_append_left _ hr'))
    rw [rounds_snoc]
    obtain ⟨q, hq⟩ : ∃ q, q = rounds s rs := ⟨_, rfl⟩
    rw [← hq] at hn hl ⊢
    obtain ⟨f1, f2, f3⟩ := rounds_facts s rs k
    have hI : Inv q.1 := hq ▸ h.rounds rs
    have hC : q.1.configured = true := by rw [hq, f1]; exact hc
    have hA : Alone q.1 k := hq ▸ f3 ha
    have hK : keys (grp q.1 k) = ids := by rw [hq, f2, hids]
    obtain ⟨e1, e2, e3, e4⟩ := round_grp hC hA r
    obtain ⟨g, hg⟩ : ∃ g, g = grp (r.frames.foldl frame q.1) k := ⟨_, rfl⟩
    rw [← hg] at e1 e2 e3 e4
    have hKg : keys g = ids := by rw [hg, keys_grp_frames, hK]
    have hNg : (keys g).Nodup := by rw [hKg, ← hK]; exact hI.nodup k
    -- lengths after the round
    have hlen : ∀ i ∈ ids, (closed i (rs ++ [r])).length ≤ n + 1 := by
      intro i hi
      have := hstep rs r [] rfl i hi j0 hj0
      omega
    -- pending segments after the frames of the round
    have hpend : ∀ i ∈ ids, pend g i = (closed i (rs ++ [r]))[n]? := by
      intro i hi
      obtain ⟨a1, a2, a3, _, _⟩ := hn i hi
      have := hlen i hi
      rw [hg, frames_pend hI hA (by rw [hK]; exact hi), a3]
      rw [closed_snoc] at this ⊢
      rw [List.length_append] at this
      rw [List.getElem?_append]
      split
      · have e0 : closedF i r.frames = [] := List.eq_nil_of_length_eq_zero (by omega)
        rw [e0]; rfl
      · have en : (closed i rs).length = n := by omega
        rw [en, Nat.sub_self]
        have e0 : (closed i rs)[n]? = none := by rw [List.getElem?_eq_none_iff]; omega
        rw [e0, Option.or_none]
        cases hcl : closedF i r.frames with
        | nil => rfl
        | cons x l =>
          rw [hcl, List.length_cons] at this
          have : l = [] := List.eq_nil_of_length_eq_zero (by omega)
          subst this; rfl
    by_cases hcomp : g.complete = true
    · -- a set is written
      have hall : ∀ i ∈ ids, (closed i (rs ++ [r])).length = n + 1 := by
        intro i hi
        have := (complete_iff hNg).1 hcomp i (by rw [hKg]; exact hi)
        rw [hpend i hi] at this
        have h2 := hlen i hi
        by_cases hlt : n < (closed i (rs ++ [r])).length
        · omega
        · rw [List.getElem?_eq_none_iff.2 (by omega)] at this; simp at this
      have hne : g.isEmpty = false := by
        cases hgg : g with
        | nil => rw [hgg] at hKg; rw [← hKg] at hfirst; simp [keys] at hfirst
        | cons x l => rfl
      have hw : writeGrp k (okOf r k) g = ((writeAll k (okOf r k) (headTime g).1 g).1,
          (writeAll k (okOf r k) (headTime g).1 g).2.1 ++ [Eff.listed k (headTime g).1 (headTime g).2]) := by
        rw [writeGrp, if_neg (by simp [hne]), if_neg (by simp [hcomp])]
        dsimp only
        rw [writeAll_ok k _ _ g (fun i hi => hok r (by simp) i (by rw [← hKg]; exact hi))]
        rfl
      have htake : ∀ i ∈ ids, ∃ x, (closed i (rs ++ [r]))[n]? = some x ∧ pend g i = some x ∧
          (closed i (rs ++ [r])).take (n + 1) = (closed i rs).take n ++ [x] := by
        intro i hi
        have hli := hall i hi
        have hlt : n < (closed i (rs ++ [r])).length := by omega
        refine ⟨(closed i (rs ++ [r]))[n], List.getElem?_eq_getElem hlt, ?_, ?_⟩
        · rw [hpend i hi, List.getElem?_eq_getElem hlt]
        · rw [List.take_add_one, List.getElem?_eq_getElem hlt]
          congr 1
          obtain ⟨a1, _⟩ := hn i hi
          rw [closed_snoc, List.take_append_of_le_length a1]
      obtain ⟨xf, hxf, hpf, htf⟩ := htake first hfirst
      have hht : headTime g = (xf.ts, xf.dur) := by
        rw [headTime_eq (hKg.trans hk), hpf]; rfl
      refine ⟨n + 1, ?_, ⟨first, hfirst, hall first hfirst⟩, ?_⟩
      · intro i hi
        obtain ⟨a1, a2, a3, a4, a5⟩ := hn i hi
        obtain ⟨x, hx, hp, ht⟩ := htake i hi
        have hli := hall i hi
        have hslot : files k i (writeAll k (okOf r k) (headTime g).1 g).2.1 = [((pend g i).map Seg.data).getD []] ∧
            names k i (writeAll k (okOf r k) (headTime g).1 g).2.1 = [(headTime g).1] ∧
            pend (writeAll k (okOf r k) (headTime g).1 g).1 i = none := by
          rcases writeAll_slot k (okOf r k) (headTime g).1 i g hNg (by rw [hKg]; exact hi) with hh | ⟨_, _, _, hf⟩
          · exact hh
          · rw [writeAll_ok k _ _ g (fun i hi => hok r (by simp) i (by rw [← hKg]; exact hi))] at hf
            simp at hf
        refine ⟨by omega, by omega, ?_, ?_, ?_⟩
        · show pend (grp (round q.1 r).1 k) i = _
          rw [e1, hw]
          show pend (writeAll k (okOf r k) (headTime g).1 g).1 i = _
          rw [hslot.2.2, List.getElem?_eq_none_iff.2 (by omega)]
        · show files k i (q.2 ++ (round q.1 r).2) = _
          rw [files_append, a4, e2, hw]
          show _ ++ files k i (_ ++ _) = _
          rw [files_append, hslot.1, hp, ht]
          simp [files]
        · show names k i (q.2 ++ (round q.1 r).2) = _
          rw [names_append, a5, e3, hw]
          show _ ++ names k i (_ ++ _) = _
          rw [names_append, hslot.2.1, htf, hht]
          simp [names]
      · show lists k (q.2 ++ (round q.1 r).2) = _
        rw [lists_append, hl, e4, hw]
        show _ ++ lists k (_ ++ _) = _
        rw [lists_append, lists_writeAll, htf, hht]
        simp [lists]
    · -- not yet
      have hw : writeGrp k (okOf r k) g = (g, []) := by
        rw [writeGrp]
        split
        · rfl
        · rw [if_pos (by simpa using hcomp)]
      obtain ⟨j, hj, hjn⟩ : ∃ j ∈ ids, (closed j (rs ++ [r])).length ≤ n := by
        have : ¬ ∀ i ∈ ids, (pend g i).isSome = true := by
          intro hh; exact hcomp ((complete_iff hNg).2 (by rw [hKg]; exact hh))
        simp only [Classical.not_forall] at this
        obtain ⟨j, hj, hjp⟩ := this
        refine ⟨j, hj, ?_⟩
        rw [hpend j hj] at hjp
        rcases Nat.lt_or_ge n (closed j (rs ++ [r])).length with hlt | hge
        · rw [List.getElem?_eq_getElem hlt] at hjp; exact absurd rfl hjp
        · exact hge
      have hsame : ∀ i ∈ ids, (closed i (rs ++ [r])).take n = (closed i rs).take n := by
        intro i hi
        rw [closed_snoc, List.take_append_of_le_length (hn i hi).1]
      refine ⟨n, ?_, ⟨j, hj, ?_⟩, ?_⟩
      · intro i hi
        obtain ⟨a1, a2, a3, a4, a5⟩ := hn i hi
        refine ⟨by rw [closed_snoc, List.length_append]; omega, hlen i hi, ?_, ?_, ?_⟩
        · show pend (grp (round q.1 r).1 k) i = _
          rw [e1, hw]; exact hpend i hi
        · show files k i (q.2 ++ (round q.1 r).2) = _
          rw [files_append, a4, e2, hw, hsame i hi]; simp [files]
        · show names k i (q.2 ++ (round q.1 r).2) = _
          rw [names_append, a5, e3, hw, hsame first hfirst]; simp [names]
      · have := (hn j hj).1
        rw [closed_snoc, List.length_append] at hjn ⊢
        omega
      · show lists k (q.2 ++ (round q.1 r).2) = _
        rw [lists_append, hl, e4, hw, hsame first hfirst]; simp [lists]

/-- **C67 (streams in step).**  As long as files can be written and no stream gets a segment ahead of the others
by more than one, nothing is lost: with `n` the number of segments the slowest stream has closed, the first `n`
segments of every stream have been written, each to its own file, the files of the `m`-th set all carry the start
time of the first stream's `m`-th segment, and the timeline lists exactly the first stream's first `n` segments. -/
theorem in_step_nothing_lost (ops : List Op) (hs : ∀ op ∈ ops, Setup op) (k : Kind)
    (ha : k = .audio → (ready ops).v = []) (first : Nat) (others : List Nat)
    (hk : keys (grp (ready ops) k) = first :: others) (rs : List Round)
    (hok : ∀ r ∈ rs, ∀ i, okOf r k i = true) (hstep : InStep (first :: others) rs) :
    ∃ n, (∃ j ∈ first :: others, (closed j rs).length = n) ∧
      (∀ i ∈ first :: others, n ≤ (closed i rs).length ∧
        files k i (rounds (ready ops) rs).2 = ((closed i rs).take n).map Seg.data ∧
        names k i (rounds (ready ops) rs).2 = ((closed first rs).take n).map Seg.ts) ∧
      lists k (rounds (ready ops) rs).2 = ((closed first rs).take n).map fun x => (x.ts, x.dur) := by
  have hc : (ready ops).configured = true := by
    cases hcc : (ready ops).configured with
    | true => rfl
    | false =>
      obtain ⟨_, h2, h3⟩ := (ready_inv ops).conf hcc
      cases k <;> simp [grp, h2, h3, keys] at hk
  obtain ⟨n, hn, hl, hli⟩ := written (ready_inv ops) hc ha hk (fun i _ => ready_pend ops hs k i) rs
    (fun r hr i _ => hok r hr i) (by rw [hk]; exact hstep)
  rw [hk] at hn hl
  exact ⟨n, hl, fun i hi => ⟨(hn i hi).1, (hn i hi).2.2.2⟩, hli⟩

/-! ## A concrete run -/

def vf (id time : Nat) (made : Option Seg) : Fr := { id := id, time := time, managed := some time, initOk := true, made := made }

def rnd (fs : List Fr) (force : Nat → Option Seg := fun _ => none) : Round :=
  { frames := fs, force := force, okV := fun _ => true, okA := fun _ => true }

def setup2 : List Op := [.configure 2, .add 7 .h264, .add 4 .h265]

def sg (ts : Nat) (b : UInt8) : Seg := { ts := ts, dur := 10, data := [b] }

example : keys (ready setup2).v = [4, 7] := by decide

theorem inStep_of_take {ids : List Nat} {rs : List Round}
    (h : ∀ n < rs.length, ∀ i ∈ ids, ∀ j ∈ ids, (closed i (rs.take (n + 1))).length ≤ (closed j (rs.take n)).length + 1) :
    InStep ids rs := by
  intro p r q e i hi j hj
  have := h p.length (by rw [e]; simp) i hi j hj
  have e1 : rs.take (p.length + 1) = p ++ [r] := by
    rw [e, show p ++ r :: q = (p ++ [r]) ++ q by simp]
    exact List.take_left' (by simp)
  have e2 : rs.take p.length = p := by rw [e]; exact List.take_left' rfl
  rw [e1, e2] at this
  exact this

def threeRounds : List Round :=
  [rnd [vf 4 100 none, vf 7 100 none], rnd [vf 4 110 (some (sg 0 1))], rnd [vf 7 111 (some (sg 1 2))],
    rnd [vf 4 120 (some (sg 10 3)), vf 7 120 (some (sg 10 4))], rnd [vf 4 130 (some (sg 20 5))]]

/-- Two streams in step; the second closes its first segment a round later and its third not yet. -/
example : InStep [4, 7] threeRounds := inStep_of_take (by decide)

example : (rounds (ready setup2) threeRounds).2 =
    [.file .video 4 0 [1], .file .video 7 0 [2], .listed .video 0 10,
      .file .video 4 10 [3], .file .video 7 10 [4], .listed .video 10 10] := by decide

/-- **C67 (recorded exception).**  When one stream closes two segments before another closes its first, the
first of the two is never written, and the files of the set belong to different times. -/
theorem late_stream_loses_segments :
    (rounds (ready setup2) [rnd [vf 4 100 none, vf 7 100 none], rnd [vf 4 110 (some (sg 0 1))],
      rnd [vf 4 120 (some (sg 10 3))], rnd [vf 7 121 (some (sg 0 2))]]).2 =
    [.file .video 4 10 [3], .file .video 7 10 [2], .listed .video 10 10] := by decide

/-- **C67 (recorded exception).**  If the file of one stream cannot be opened nothing is listed, the files
before it stay, and its unwritten segment is put together with the next segment of the others. -/
theorem failed_write_mixes_sets :
    (rounds (ready setup2)
      [{ frames := [vf 4 110 (some (sg 0 1)), vf 7 110 (some (sg 0 2))], force := fun _ => none,
         okV := fun i => i == 4, okA := fun _ => true },
       rnd [vf 4 120 (some (sg 10 3))]]).2 =
    [.file .video 4 0 [1], .file .video 4 10 [3], .file .video 7 10 [2], .listed .video 10 10] := by decide

end Lms.DashTop
