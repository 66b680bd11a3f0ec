import Verif.SharedReader.Spec

namespace Lms.SharedReader
open Lms.FrameQueue

variable {α : Type}

structure Rel (s : Rd α) (t : Spec α) : Prop where
  ring : FrameQueue.Rel s.ring t.q
  conn : s.conn = true
  mem : s.filters.map (·.1) = t.members
  nd : t.members.Nodup
  ready : s.ready = !t.active
  idle : t.active = false → s.frame = none
  held : t.active = true → s.frame = some s.ring.front ∧ t.q.q ≠ []
  flags : t.active = true → ∀ e ∈ s.filters,
    (e.2.1 = true ↔ e.1 ∈ t.todo) ∧ (e.2.2 = true ↔ e.1 ∈ t.todo ∨ e.1 ∈ t.hold)
  sub : t.active = true → (∀ f ∈ t.todo, f ∈ t.members) ∧ (∀ f ∈ t.hold, f ∈ t.members) ∧
    (∀ f ∈ t.todo, f ∉ t.hold) ∧ (t.todo ≠ [] ∨ t.hold ≠ [])

theorem has_iff (s : Rd α) (t : Spec α) (h : s.filters.map (·.1) = t.members) (f : Nat) :
    s.has f = decide (f ∈ t.members) := by
  unfold Rd.has
  rw [← h]
  rw [Bool.eq_iff_iff]
  simp

theorem step_put_front {r : Ring α} {t : FrameQueue.Spec α} (hr : FrameQueue.Rel r t) (x : α)
    (r' : Ring α) (o : FrameQueue.Out α)
    (h : FrameQueue.step r (.put x) = .ok (r', o)) : r'.front = r.front := by
  simp only [FrameQueue.step, hr.writerSlot_false, Outcome.bind_ok] at h
  by_cases hc : t.q.length < t.cap
  · simp only [hc, if_true] at h
    obtain ⟨r2, h6, _⟩ := hr.put hc x
    rw [h6] at h
    simp at h
    rw [← h.1]
    unfold Ring.addFrame at h6
    split at h6
    · simp at h6
    · split at h6 <;> simp at h6 <;> rw [← h6] <;> rfl
  · simp only [hc, if_false] at h
    simp at h
    rw [h.1]

theorem step_forcePut_front {r : Ring α} {t : FrameQueue.Spec α} (hr : FrameQueue.Rel r t) (x : α)
    (r' : Ring α) (o : FrameQueue.Out α)
    (h : FrameQueue.step r (.forcePut x) = .ok (r', o)) : r'.front = r.front := by
  obtain ⟨r1, h1, h2, h3, _, h5, _⟩ := hr.writerSlot_true
  simp only [FrameQueue.step, h1, Outcome.bind_ok] at h
  obtain ⟨r2, h6, _⟩ := h2.put h3 x
  rw [h6] at h
  simp at h
  rw [← h.1, ← h5]
  unfold Ring.addFrame at h6
  split at h6
  · simp at h6
  · split at h6 <;> simp at h6 <;> rw [← h6] <;> rfl

theorem untold_iff {fs : List (Nat × Bool × Bool)} {todo : List Nat} {f : Nat}
    (h : ∀ e ∈ fs, (e.2.1 = true ↔ e.1 ∈ todo)) (hf : f ∈ fs.map (·.1)) :
    untold fs f = decide (f ∈ todo) := by
  rw [Bool.eq_iff_iff]
  unfold untold
  simp only [List.any_eq_true, Bool.and_eq_true, beq_iff_eq, decide_eq_true_eq]
  constructor
  · rintro ⟨e, he, rfl, h2⟩; exact (h e he).1 h2
  · intro hm
    obtain ⟨e, he, rfl⟩ := List.mem_map.1 hf
    exact ⟨e, he, rfl, (h e he).2 hm⟩

theorem allRead_iff {fs : List (Nat × Bool × Bool)} {todo hold : List Nat}
    (h : ∀ e ∈ fs, (e.2.1 = true ↔ e.1 ∈ todo) ∧ (e.2.2 = true ↔ e.1 ∈ todo ∨ e.1 ∈ hold))
    (h1 : ∀ f ∈ todo, f ∈ fs.map (·.1)) (h2 : ∀ f ∈ hold, f ∈ fs.map (·.1)) :
    allRead fs = decide (todo = [] ∧ hold = []) := by
  rw [Bool.eq_iff_iff]
  unfold allRead
  simp only [List.all_eq_true, Bool.not_eq_true', Bool.or_eq_false_iff, decide_eq_true_eq]
  constructor
  · intro ha
    constructor
    · rcases todo with _ | ⟨f, fs'⟩
      · rfl
      · obtain ⟨e, he, hef⟩ := List.mem_map.1 (h1 f (by simp))
        have := ha e he
        have h3 := (h e he).1.2 (by rw [hef]; simp)
        rw [this.1] at h3; simp at h3
    · rcases hold with _ | ⟨f, fs'⟩
      · rfl
      · obtain ⟨e, he, hef⟩ := List.mem_map.1 (h2 f (by simp))
        have := ha e he
        have h3 := (h e he).2.2 (by rw [hef]; simp)
        rw [this.2] at h3; simp at h3
  · rintro ⟨rfl, rfl⟩ e he
    have := h e he
    simp at this
    exact this

theorem setTold_map (fs : List (Nat × Bool × Bool)) (f : Nat) :
    (setTold fs f).map (·.1) = fs.map (·.1) := by
  unfold setTold
  rw [List.map_map]
  apply List.map_congr_left
  intro e _
  simp only [Function.comp]
  split <;> rfl

theorem setReleased_map (fs : List (Nat × Bool × Bool)) (f : Nat) :
    (setReleased fs f).map (·.1) = fs.map (·.1) := by
  unfold setReleased
  rw [List.map_map]
  apply List.map_congr_left
  intro e _
  simp only [Function.comp]
  split <;> rfl

/-- Announcing the head frame to `f`. -/
theorem Rel.announce {s : Rd α} {t : Spec α} (h : Rel s t) (f : Nat) (hf : f ∈ t.members)
    (x : α) (q : List α) (hq : t.q.q = x :: q) :
    s.getFrame f = .ok ({ s with
        frame := some s.ring.front, ready := false
        filters := setTold (if s.ready then s.filters.map fun e => (e.1, true, true) else s.filters) f },
      (t.get f).2) ∧
    Rel { s with
        frame := some s.ring.front, ready := false
        filters := setTold (if s.ready then s.filters.map fun e => (e.1, true, true) else s.filters) f }
      (t.get f).1 := by
  obtain ⟨hfr, hslot, _⟩ := h.ring.take x q hq
  have hhas : s.has f = true := by rw [has_iff s t h.mem]; simpa using hf
  have hor : s.frame.or s.ring.getFront = some s.ring.front := by
    rw [hfr]
    rcases ha : t.active with _ | _
    · rw [h.idle ha]; rfl
    · rw [(h.held ha).1]; rfl
  generalize hfs : (if s.ready then s.filters.map fun e => (e.1, true, true) else s.filters) = fs
  generalize htodo : (if t.active then t.todo else t.members) = todo
  generalize hhold : (if t.active then t.hold else []) = hold
  have hmap : fs.map (·.1) = t.members := by
    rw [← hfs, ← h.mem]
    split
    · rw [List.map_map]; rfl
    · rfl
  have hflags : ∀ e ∈ fs, (e.2.1 = true ↔ e.1 ∈ todo) ∧ (e.2.2 = true ↔ e.1 ∈ todo ∨ e.1 ∈ hold) := by
    intro e he
    rw [← hfs] at he
    rw [← htodo, ← hhold]
    rcases ha : t.active with _ | _
    · rw [h.ready, ha] at he
      simp only [Bool.not_false, if_true] at he
      obtain ⟨e', he', rfl⟩ := List.mem_map.1 he
      have : e'.1 ∈ t.members := by rw [← h.mem]; exact List.mem_map_of_mem he'
      simp [this]
    · rw [h.ready, ha] at he
      simp at he
      simpa using h.flags ha e he
  have hsub : (∀ g ∈ todo, g ∈ t.members) ∧ (∀ g ∈ hold, g ∈ t.members) ∧ (∀ g ∈ todo, g ∉ hold) := by
    rw [← htodo, ← hhold]
    rcases ha : t.active with _ | _
    · simp
    · have := h.sub ha; simp only [if_true]; exact ⟨this.1, this.2.1, this.2.2.1⟩
  have hu : untold fs f = decide (f ∈ todo) :=
    untold_iff (fun e he => (hflags e he).1) (by rw [hmap]; exact hf)
  have hget : t.get f = if f ∈ todo then
      ({ t with active := true, todo := todo.filter (· ≠ f), hold := f :: hold }, some (x, true))
      else ({ t with active := true, todo := todo, hold := hold }, some (x, false)) := by
    unfold Spec.get
    rw [if_pos hf, hq]
    simp only [htodo, hhold]
  have hne : todo ≠ [] ∨ hold ≠ [] := by
    rw [← htodo, ← hhold]
    rcases ha : t.active with _ | _
    · left; intro h0; simp at h0; rw [h0] at hf; simp at hf
    · simpa using (h.sub ha).2.2.2
  constructor
  · unfold Rd.getFrame
    simp only [h.conn, hhas, hor, hfs, hu, hslot, hget, Bool.not_true, Bool.false_eq_true, if_false]
    split <;> simp [*]
  · rw [hget]
    have hmem2 : (setTold fs f).map (·.1) = t.members := by rw [setTold_map, hmap]
    split
    · rename_i hin
      refine ⟨h.ring, h.conn, hmem2, h.nd, rfl, by simp, ?_, ?_, ?_⟩
      · intro _; exact ⟨rfl, by show t.q.q ≠ []; rw [hq]; simp⟩
      · intro _ e he
        unfold setTold at he
        obtain ⟨e', he', hee⟩ := List.mem_map.1 he
        have hfl := hflags e' he'
        split at hee
        · rename_i h1
          subst hee
          simp only
          subst h1
          refine ⟨by simp, ?_⟩
          rw [hfl.2]
          simp [hin]
        · rename_i h1
          subst hee
          simp [h1, hfl.1, hfl.2]
      · intro _
        refine ⟨?_, ?_, ?_, ?_⟩
        · intro g hg; exact hsub.1 g (List.mem_filter.1 hg).1
        · intro g hg
          rcases List.mem_cons.1 hg with rfl | hg
          · exact hf
          · exact hsub.2.1 g hg
        · intro g hg hg2
          have := List.mem_filter.1 hg
          simp at this
          rcases List.mem_cons.1 hg2 with rfl | hg2
          · exact this.2 rfl
          · exact hsub.2.2 g this.1 hg2
        · right; simp
    · rename_i hin
      refine ⟨h.ring, h.conn, hmem2, h.nd, rfl, by simp, ?_, ?_, ?_⟩
      · intro _; exact ⟨rfl, by show t.q.q ≠ []; rw [hq]; simp⟩
      · intro _ e he
        unfold setTold at he
        obtain ⟨e', he', hee⟩ := List.mem_map.1 he
        have hfl := hflags e' he'
        split at hee
        · rename_i h1
          subst hee
          simp only
          subst h1
          exact ⟨by simp [hin], hfl.2⟩
        · subst hee; exact hfl
      · intro _; exact ⟨hsub.1, hsub.2.1, hsub.2.2, hne⟩

theorem step_rel (s : Rd α) (t : Spec α) (op : Op α) (hsafe : Safe t op) (h : Rel s t) :
    ∃ s', s.step op = .ok (s', (t.step op).2) ∧ Rel s' (t.step op).1 := by
  cases op with
  | put x =>
    obtain ⟨r', h1, h2⟩ := FrameQueue.step_rel s.ring t.q (.put x) h.ring
    have hfr := step_put_front h.ring _ _ _ h1
    refine ⟨{ s with ring := r' }, ?_, ?_⟩
    · simp only [Rd.step, h1, Outcome.bind_ok, Spec.step, FrameQueue.Spec.step]
      by_cases hc : t.q.q.length < t.q.cap <;> simp [hc]
    · simp only [FrameQueue.Spec.step] at h2
      simp only [Spec.step]
      split
      · rename_i hc
        rw [if_pos hc] at h2
        refine ⟨h2, h.conn, h.mem, h.nd, h.ready, h.idle, ?_, h.flags, h.sub⟩
        intro ha
        refine ⟨?_, by simp⟩
        show s.frame = some r'.front
        rw [hfr]; exact (h.held ha).1
      · rename_i hc
        rw [if_neg hc] at h2
        refine ⟨h2, h.conn, h.mem, h.nd, h.ready, h.idle, ?_, h.flags, h.sub⟩
        intro ha
        refine ⟨?_, (h.held ha).2⟩
        show s.frame = some r'.front
        rw [hfr]; exact (h.held ha).1
  | forcePut x =>
    obtain ⟨r', h1, h2⟩ := FrameQueue.step_rel s.ring t.q (.forcePut x) h.ring
    have hfr := step_forcePut_front h.ring _ _ _ h1
    refine ⟨{ s with ring := r' }, ?_, ?_⟩
    · simp only [Rd.step, h1, Outcome.bind_ok, Spec.step, FrameQueue.Spec.step]
    · simp only [FrameQueue.Spec.step] at h2
      simp only [Spec.step]
      refine ⟨h2, h.conn, h.mem, h.nd, h.ready, h.idle, ?_, h.flags, h.sub⟩
      intro ha
      refine ⟨?_, by simp⟩
      show s.frame = some r'.front
      rw [hfr]; exact (h.held ha).1
  | get f =>
    simp only [Rd.step, Spec.step]
    by_cases hf : f ∈ t.members
    · rcases hq : t.q.q with _ | ⟨x, q⟩
      · have hact : t.active = false := by
          rcases ha : t.active with _ | _
          · rfl
          · exact absurd hq (h.held ha).2
        have hhas : s.has f = true := by rw [has_iff s t h.mem]; simpa using hf
        have hfr : s.ring.getFront = none := by
          unfold Ring.getFront; rw [if_pos (h.ring.empty_iff.2 hq)]
        obtain ⟨r', h1, h2⟩ := FrameQueue.step_rel s.ring t.q .old h.ring
        simp only [FrameQueue.step, FrameQueue.Spec.step] at h1
        refine ⟨s, ?_, ?_⟩
        · rcases hfg : s.ring.forceGetFront with i | _ | _ <;> rw [hfg] at h1 <;> simp at h1
          unfold Rd.getFrame
          simp [h.conn, hhas, h.idle hact, hfr, hfg, Spec.get, hf, hq, h1.2]
        · unfold Spec.get; rw [if_pos hf, hq]; exact h
      · obtain ⟨h1, h2⟩ := h.announce f hf x q hq
        exact ⟨_, by rw [h1]; rfl, h2⟩
    · have hhas : s.has f = false := by rw [has_iff s t h.mem]; simpa using hf
      refine ⟨s, ?_, ?_⟩
      · unfold Rd.getFrame; simp [h.conn, hhas, Spec.get, hf]
      · unfold Spec.get; rw [if_neg hf]; exact h
  | remove f =>
    obtain ⟨ha, hfh⟩ := hsafe
    simp only [Rd.step, Spec.step]
    obtain ⟨hs1, hs2, hs3, hs4⟩ := h.sub ha
    have hflags : ∀ e ∈ setReleased s.filters f, (e.2.1 = true ↔ e.1 ∈ t.todo) ∧
        (e.2.2 = true ↔ e.1 ∈ t.todo ∨ e.1 ∈ t.hold.filter (· ≠ f)) := by
      intro e he
      unfold setReleased at he
      obtain ⟨e', he', hee⟩ := List.mem_map.1 he
      have hfl := h.flags ha e' he'
      split at hee
      · rename_i h1
        subst hee
        simp only
        refine ⟨hfl.1, ?_⟩
        have hnt : e'.1 ∉ t.todo := by
          intro h2; rw [h1] at h2; exact hs3 f h2 hfh
        rw [h1] at hnt; simp [hnt, h1]
      · rename_i h1
        subst hee
        simp [h1, hfl.1, hfl.2]
    have hall : allRead (setReleased s.filters f) = decide (t.todo = [] ∧ t.hold.filter (· ≠ f) = []) := by
      apply allRead_iff hflags
      · intro g hg; rw [setReleased_map, h.mem]; exact hs1 g hg
      · intro g hg; rw [setReleased_map, h.mem]; exact hs2 g (List.mem_filter.1 hg).1
    unfold Rd.removeFrame Spec.remove
    simp only [hall]
    by_cases hc : t.todo = [] ∧ t.hold.filter (· ≠ f) = []
    · have hd : decide (t.todo = [] ∧ t.hold.filter (· ≠ f) = []) = true := decide_eq_true hc
      rw [hd, if_pos rfl, if_pos hc]
      rcases hq : t.q.q with _ | ⟨x, q⟩
      · exact absurd hq (h.held ha).2
      · obtain ⟨_, _, r', h1, h2, h3, h4, h5⟩ := h.ring.take x q hq
        simp only [(h.held ha).1, h.conn, h1]
        refine ⟨_, rfl, ?_⟩
        refine ⟨h5, rfl, ?_, h.nd, rfl, fun _ => rfl, ?_, ?_, ?_⟩
        · show (setReleased s.filters f).map _ = _
          rw [setReleased_map]; exact h.mem
        all_goals (intro h0; simp at h0)
    · have hd : decide (t.todo = [] ∧ t.hold.filter (· ≠ f) = []) = false := decide_eq_false hc
      rw [hd, if_neg (by simp), if_neg hc]
      refine ⟨_, rfl, ?_⟩
      refine ⟨h.ring, h.conn, ?_, h.nd, h.ready, h.idle, h.held, fun _ => hflags, ?_⟩
      · show (setReleased s.filters f).map _ = _
        rw [setReleased_map]; exact h.mem
      · intro _
        refine ⟨hs1, fun g hg => hs2 g (List.mem_filter.1 hg).1,
          fun g hg h2 => hs3 g hg (List.mem_filter.1 h2).1, ?_⟩
        exact Decidable.not_and_iff_not_or_not.1 hc
  | join f =>
    simp only [Rd.step, Spec.step, Rd.addReader]
    rw [has_iff s t h.mem f]
    by_cases hf : f ∈ t.members
    · simp [hf, h.conn]
      exact h
    · simp [hf, h.conn]
      refine ⟨h.ring, rfl, ?_, ?_, h.ready, h.idle, h.held, ?_, ?_⟩
      · simp [h.mem]
      · rw [List.nodup_append]
        exact ⟨h.nd, by simp, by intro a ha b hb; simp at hb; subst hb; intro e; subst e; exact hf ha⟩
      · intro ha e he
        rcases List.mem_append.1 he with he | he
        · exact h.flags ha e he
        · simp at he
          subst he
          have hs := h.sub ha
          have h1 : f ∉ t.todo := fun h2 => hf (hs.1 f h2)
          have h2 : f ∉ t.hold := fun h2 => hf (hs.2.1 f h2)
          simp [h1, h2]
      · intro ha
        have hs := h.sub ha
        exact ⟨fun g hg => List.mem_append_left _ (hs.1 g hg), fun g hg => List.mem_append_left _ (hs.2.1 g hg), hs.2.2⟩
  | leave f =>
    simp only [Rd.step, Spec.step, Rd.disconnect]
    rw [has_iff s t h.mem f]
    by_cases hf : f ∈ t.members
    · simp only [hf, decide_true, Bool.not_true, Bool.false_eq_true, if_false, if_true]
      obtain ⟨⟨g, hg, hgf⟩, hsafe2⟩ := And.intro (hsafe.1 hf) (fun ha => hsafe.2 ha hf)
      have hmap : (s.filters.filter fun e => e.1 != f).map (·.1) = t.members.filter (· ≠ f) := by
        rw [← h.mem, List.filter_map]
        congr 1
        apply List.filter_congr
        intro e _; by_cases he : e.1 = f <;> simp [he]
      have hne : (s.filters.filter fun e => e.1 != f).isEmpty = false := by
        rw [Bool.eq_false_iff]
        intro he
        rw [List.isEmpty_iff] at he
        rw [he] at hmap
        have : g ∈ t.members.filter (· ≠ f) := List.mem_filter.2 ⟨hg, by simpa using hgf⟩
        rw [← hmap] at this; simp at this
      rw [hne]
      simp only [Bool.false_eq_true, if_false]
      refine ⟨_, rfl, ?_⟩
      refine ⟨h.ring, h.conn, hmap, h.nd.filter _, h.ready, h.idle, h.held, ?_, ?_⟩
      · intro ha e he
        have he2 := List.mem_filter.1 he
        have hfl := h.flags ha e he2.1
        have hnf : e.1 ≠ f := by simpa using he2.2
        simp [hnf, hfl.1, hfl.2]
      · intro ha
        have hs := h.sub ha
        refine ⟨?_, ?_, ?_, ?_⟩
        · intro g hg
          have := List.mem_filter.1 hg
          exact List.mem_filter.2 ⟨hs.1 g this.1, this.2⟩
        · intro g hg
          have := List.mem_filter.1 hg
          exact List.mem_filter.2 ⟨hs.2.1 g this.1, this.2⟩
        · intro g hg hg2
          exact hs.2.2.1 g (List.mem_filter.1 hg).1 (List.mem_filter.1 hg2).1
        · obtain ⟨k, hk, hk2⟩ := hsafe2 ha
          rcases hk2 with hk2 | hk2
          · left
            intro h0
            have h0 : t.todo.filter (· ≠ f) = [] := h0
            have : k ∈ t.todo.filter (· ≠ f) := List.mem_filter.2 ⟨hk2, by simpa using hk⟩
            rw [h0] at this; simp at this
          · right
            intro h0
            have h0 : t.hold.filter (· ≠ f) = [] := h0
            have : k ∈ t.hold.filter (· ≠ f) := List.mem_filter.2 ⟨hk2, by simpa using hk⟩
            rw [h0] at this; simp at this
    · simp only [hf, decide_false, Bool.not_false, if_true, if_false]
      exact ⟨s, rfl, h⟩

theorem create_rel (maxFrames : Nat) (hm : 2 ≤ maxFrames) (d : Nat → α) (f : Nat) :
    Rel (Rd.create (Ring.create maxFrames d) f) (Spec.init (FrameQueue.Spec.init maxFrames d) f) := by
  refine ⟨FrameQueue.create_rel maxFrames hm d, rfl, rfl, by simp [Spec.init], rfl, fun _ => rfl, ?_, ?_, ?_⟩ <;>
    simp [Spec.init]

end Lms.SharedReader
