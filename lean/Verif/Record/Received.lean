import Verif.Record.Props

/-!
# C85: streams without decode times, what bounds a recording, and the initialisation file
-/

namespace Lms.Record

open Nalu (Picture payload kindOf Whole)

/-! ## Buffers -/

/-- Nothing more than the buffers hold is collected. -/
def Bounded (s : Dash.State) : Prop := s.ctx.samples.length ≤ 65536 ∧ s.ctx.data.length ≤ 10485760

theorem close_bounded {cap : Nat} {s s' : Dash.State} {o : Option Dash.Seg} (h : Bounded s) (he : Dash.close cap s = .ok (s', o)) :
    Bounded s' := by
  unfold Dash.close at he
  cases hg : Isoff.segmentGenerator cap s.ctx with
  | ub => rw [hg] at he; cases he
  | hang => rw [hg] at he; cases he
  | ok r =>
    rw [hg] at he
    simp only [Outcome.bind_ok] at he
    cases r with
    | err _ =>
      simp only [Outcome.ok.injEq, Prod.mk.injEq] at he
      rw [← he.1]; exact h
    | out c b =>
      simp only [Outcome.ok.injEq, Prod.mk.injEq] at he
      rw [← he.1]
      exact ⟨Nat.zero_le _, Nat.zero_le _⟩

theorem generate_bounded {cap : Nat} {s s' : Dash.State} {i : Bool} {p : Nat} {o : Option Dash.Seg} (h : Bounded s)
    (he : Dash.generateVideo cap s i p = .ok (s', o)) : Bounded s' := by
  have key : ∀ last, Dash.closeIf cap s i last = .ok (s', o) → Bounded s' := by
    intro last he
    unfold Dash.closeIf at he
    by_cases hc : i = true ∧ (s.target + 2 ^ 32 - last) % 2 ^ 32 ≤ (s.ctx.cur + last) % 2 ^ 32
    · rw [if_pos hc] at he
      refine close_bounded ?_ he
      exact ⟨by rw [Dash.setLast_length]; exact h.1, h.2⟩
    · rw [if_neg hc] at he
      simp only [Outcome.ok.injEq, Prod.mk.injEq] at he
      rw [← he.1]; exact h
  unfold Dash.generateVideo at he
  cases hl : s.ctx.samples.getLast? with
  | none =>
    rw [hl] at he
    simp only [Outcome.ok.injEq, Prod.mk.injEq] at he
    rw [← he.1]; exact h
  | some l =>
    rw [hl] at he
    exact key _ he

theorem add_bounded {s s' : Dash.State} {f : Dash.Frm} {b : Bool} (h : Bounded s) (he : Dash.addVideo s f = .ok (s', b)) : Bounded s' := by
  unfold Dash.addVideo at he
  split at he
  · cases he; exact h
  split at he
  · cases he; exact h
  split at he
  · cases he
  rename_i hn
  simp only [Isoff.MAX_DAT, Isoff.MAX_MDAT_SAMPLE] at hn
  simp only at he
  split at he
  · cases he
    refine ⟨by simp, ?_⟩
    simp only [List.length_append]; omega
  · cases he
    refine ⟨?_, ?_⟩
    · simp only [List.length_append, Dash.setLast_length, List.length_singleton]; omega
    · simp only [List.length_append]; omega

theorem frame_bounded {cap : Nat} {s s' : Dash.State} {f : Dash.Frm} {o : Option Dash.Seg} (h : Bounded s)
    (he : Dash.videoFrame cap s f = .ok (s', o)) : Bounded s' := by
  unfold Dash.videoFrame at he
  cases hg : Dash.generateVideo cap s f.intra f.pts with
  | ub => rw [hg] at he; cases he
  | hang => rw [hg] at he; cases he
  | ok r =>
    rw [hg] at he
    simp only [Outcome.bind_ok] at he
    cases ha : Dash.addVideo r.1 f with
    | ub => rw [ha] at he; cases he
    | hang => rw [ha] at he; cases he
    | ok q =>
      rw [ha] at he
      simp only [Outcome.bind_ok] at he
      cases he
      exact add_bounded (generate_bounded h hg) ha

theorem init_bounded {cap : Nat} {a a' : Nalu.State} {s s' : Dash.State} {o : Option Bytes} (h : Bounded s)
    (he : makeInit cap a s = .ok (a', s', o)) : Bounded s' := by
  unfold makeInit at he
  split at he
  · cases he; exact h
  split at he
  · cases he; exact h
  unfold Isoff.initGenerator Isoff.store at he
  split at he
  · cases he; exact h
  simp only at he
  split at he
  · simp only [Outcome.bind_ok] at he
    cases he
    exact h
  · cases he

theorem step_bounded {cap : Nat} {off : Int} {r r' : State} {i : Nalu.Nal × Bool} {o : Out} (h : Bounded r.seg)
    (he : step cap off r i = .ok (r', o)) : Bounded r'.seg := by
  unfold step at he
  cases hm : Nalu.manageFrame r.asm i.1 with
  | ub => rw [hm] at he; cases he
  | hang => rw [hm] at he; cases he
  | ok m =>
    rw [hm] at he
    simp only [Outcome.bind_ok] at he
    split at he
    · cases he; exact h
    · rename_i au _
      cases hq : makeInit cap m.1 (setup r.secs r.seg au.width au.height) with
      | ub => rw [hq] at he; cases he
      | hang => rw [hq] at he; cases he
      | ok q =>
        rw [hq] at he
        simp only [Outcome.bind_ok] at he
        have hb : Bounded q.2.1 := init_bounded (s := setup r.secs r.seg au.width au.height) h hq
        split at he
        · cases he; exact hb
        · cases hp : ticks off au.pts with
          | ub => rw [hp] at he; cases he
          | hang => rw [hp] at he; cases he
          | ok p =>
            cases hd : ticks off au.dts with
            | ub => rw [hp, hd] at he; cases he
            | hang => rw [hp, hd] at he; cases he
            | ok d =>
              rw [hp, hd] at he
              simp only [Outcome.bind_ok] at he
              cases hv : Dash.videoFrame cap q.2.1 ⟨au.data, p, d, au.intra⟩ with
              | ub => rw [hv] at he; cases he
              | hang => rw [hv] at he; cases he
              | ok v =>
                rw [hv] at he
                simp only [Outcome.bind_ok] at he
                cases he
                exact frame_bounded hb hv

theorem run_bounded {cap : Nat} {off : Int} (l : List (Nalu.Nal × Bool)) {r r' : State} {outs : List Out} (h : Bounded r.seg)
    (he : runOps (step cap off) r l = .ok (r', outs)) : Bounded r'.seg := by
  induction l generalizing r outs with
  | nil => simp [runOps] at he; rw [← he.1]; exact h
  | cons i l ih =>
    obtain ⟨r1, o, outs', h1, h2, rfl⟩ := runOps_cons_ok he
    exact ih (step_bounded h h1) h2

/-! ## Frames without decode time -/

/-- Neighbours are less than half the target apart. -/
def Near (T : Nat) : List Dash.Frm → Prop
  | f :: g :: l => 2 * Dash.wrap (g.pts - f.pts) < T ∧ Near T (g :: l)
  | _ => True

theorem Near.tail {T : Nat} {f : Dash.Frm} {l : List Dash.Frm} (h : Near T (f :: l)) : Near T l := by
  cases l with
  | nil => trivial
  | cons g l => exact h.2

/-- If all frames have the same decode time and follow each other within half the target, no group is ever closed. -/
theorem same_decode_time_no_groups (D : Nat) (fs : List Dash.Frm) (t : Dash.Spec) (hT : t.target < 2 ^ 32)
    (hd : ∀ f ∈ t.group ++ fs, f.dts = D) (hn : Near t.target (t.group.getLast?.toList ++ fs)) : t.groups fs = [] := by
  induction fs generalizing t with
  | nil => rfl
  | cons f fs ih =>
    rw [Dash.groups_cons]
    rcases Dash.step_cases t f with ⟨h1, _, _⟩ | ⟨_, h2, h3, h4, h5⟩ | ⟨_, _, h3, h4⟩
    · exfalso
      obtain ⟨c1, _, c3⟩ := h1
      obtain ⟨b, hb⟩ : ∃ b, t.group.getLast? = some b := by
        cases h : t.group.getLast? with
        | none => exact absurd (List.getLast?_eq_none_iff.1 h) c1
        | some b => exact ⟨b, rfl⟩
      obtain ⟨a, ha⟩ : ∃ a, t.group.head? = some a := by
        cases h : t.group.head? with
        | none => exact absurd (List.head?_eq_none_iff.1 h) c1
        | some a => exact ⟨a, rfl⟩
      have e1 := hd a (List.mem_append_left _ (List.mem_of_head? ha))
      have e2 := hd b (List.mem_append_left _ (List.mem_of_getLast? hb))
      rw [hb] at hn
      have hn : 2 * Dash.wrap (f.pts - b.pts) < t.target := hn.1
      unfold Dash.groupDuration Dash.decoded Dash.lastDuration at c3
      rw [ha, hb] at c3
      simp only [e1, e2] at c3
      have hz : Dash.wrap ((D : Int) - D) = 0 := by unfold Dash.wrap; omega
      rw [hz] at c3
      generalize hw : Dash.wrap (f.pts - b.pts) = w at c3 hn
      unfold Dash.wrap at c3
      omega
    · rw [h4, h5]
      exact ih t hT (fun x hx => hd x (by simp only [List.mem_append, List.mem_cons] at hx ⊢; rcases hx with h | h <;> simp [h]))
        (by rw [h2] at hn ⊢; exact Near.tail hn)
    · rw [h3, h4]
      refine ih { t with group := t.group ++ [f] } hT (fun x hx => hd x (by simpa using hx)) ?_
      show Near t.target ((t.group ++ [f]).getLast?.toList ++ fs)
      rw [List.getLast?_append]
      cases hg : t.group.getLast? with
      | none => rw [hg] at hn; simpa using hn
      | some b => rw [hg] at hn; simpa using Near.tail hn

/-- Pictures that follow each other within `gap` microseconds. -/
def Steady (gap : Int) : List Picture → Prop
  | p :: q :: l => p.pts ≤ q.pts ∧ q.pts - p.pts ≤ gap ∧ Steady gap (q :: l)
  | _ => True

theorem near_of_steady (secs : Nat) (off : Int) (hs : 1 ≤ secs) (l : List Picture)
    (ho : ∀ p ∈ l, off ≤ p.pts ∧ (p.pts - off) * 12800 < 2 ^ 63) (h : Steady (499000 * secs) l) :
    Near (secs * BASE) (l.map (frm off ∘ Picture.au)) := by
  induction l with
  | nil => trivial
  | cons p l ih =>
    cases l with
    | nil => trivial
    | cons q l =>
      obtain ⟨h1, h2, h3⟩ := h
      refine ⟨?_, ih (fun x hx => ho x (by simp [hx])) h3⟩
      obtain ⟨a1, a2, _⟩ := tick_is_time off p.pts (ho p (by simp)).1 (ho p (by simp)).2
      obtain ⟨b1, b2, _⟩ := tick_is_time off q.pts (ho q (by simp)).1 (ho q (by simp)).2
      show 2 * Dash.wrap ((tick off q.pts : Int) - tick off p.pts) < secs * 12800
      generalize (tick off q.pts : Int) = y at *
      generalize (tick off p.pts : Int) = x at *
      have hw : (Dash.wrap (y - x) : Int) ≤ y - x := by unfold Dash.wrap; omega
      omega

/-- **C85 (counterexample, for all streams).**  A stream without decode times -- as every stream received from the network is --
whose pictures follow each other within 0.499 of the segment duration: no segment is ever finished, however long it lasts.  All
pictures from the first key picture on are collected; the buffers, for 65536 pictures and 10 megabytes, are not cleared, so every such
stream that is longer than that is beyond defined behaviour. -/
theorem received_stream_not_written (cap : Nat) (hcap : cap < 2 ^ 32) (c : Nalu.Codec) (m : Nat) (hm : m < 2 ^ 31) (secs : Nat) (hs : 1 ≤ secs)
    (hs2 : secs * 12800 < 2 ^ 32) (off : Int) (l : List Picture) (hc : Nalu.Chain c l) (hl : ∀ p ∈ l, p.Ok c ∧ p.au.data.length ≤ m)
    (hd : ∀ p ∈ l, p.dts = -1) (ho : ∀ p ∈ l, off ≤ p.pts ∧ (p.pts - off) * 12800 < 2 ^ 63) (hst : Steady (499000 * secs) l)
    (r : State) (outs : List Out)
    (he : runOps (step cap off) (new c m secs) ((l.flatMap Picture.nals).map (·, true)) = .ok (r, outs)) :
    outs.filterMap Out.seg = [] ∧ (l.dropLast.dropWhile (fun p => !p.key)).length ≤ 65536 ∧
      ((l.dropLast.dropWhile (fun p => !p.key)).map fun p => p.au.data.length).sum ≤ 10485760 := by
  obtain ⟨s', os, h1, h2⟩ := Nalu.pictures_are_assembled c m hm (new c m secs).asm ⟨rfl, rfl, .inl rfl⟩ rfl l hc hl
  have hv : (media c).isVideo = true := by cases c <;> rfl
  have hrel : Dash.Rel (new c m secs).seg ⟨secs * BASE % 2 ^ 32, [], 0⟩ := Dash.fresh_rel hv (Nat.mod_lt _ (by decide)) [] BASE 0 0
  obtain ⟨g1, g2⟩ := run_refines hcap (l.flatMap Picture.nals) hrel rfl rfl h1 he
  rw [h2, List.map_map] at g1 g2
  have hsub : ∀ p ∈ l.dropLast, p ∈ l := fun p hp => List.dropLast_subset l hp
  have hT : secs * BASE % 2 ^ 32 = secs * BASE := Nat.mod_eq_of_lt hs2
  have hst' : Steady (499000 * secs) l.dropLast := by
    clear he hc hl hd ho h1 h2 g1 g2 hsub
    induction l with
    | nil => trivial
    | cons p l ih =>
      cases l with
      | nil => trivial
      | cons q l =>
        obtain ⟨h1, h2, h3⟩ := hst
        cases l with
        | nil => trivial
        | cons z l => exact ⟨h1, h2, ih h3⟩
  have hnone : Dash.Spec.groups ⟨secs * BASE % 2 ^ 32, [], 0⟩ (l.dropLast.map (frm off ∘ Picture.au)) = [] := by
    refine same_decode_time_no_groups (tick off (-1)) _ _ (Nat.mod_lt _ (by decide)) ?_ ?_
    · intro f hf
      simp only [List.nil_append, List.mem_map] at hf
      obtain ⟨p, hp, rfl⟩ := hf
      show tick off p.dts = _
      rw [hd p (hsub p hp)]
    · show Near (secs * BASE % 2 ^ 32) (l.dropLast.map (frm off ∘ Picture.au))
      rw [hT]
      exact near_of_steady secs off hs _ (fun p hp => ho p (hsub p hp)) hst'
  rw [hnone] at g2
  obtain ⟨parts, rest, p1, p2, p3⟩ := recording_plays_back cap hcap c m hm secs off l hc hl r outs he
  have hsegs : outs.filterMap Out.seg = [] := List.forall₂_nil_right_iff.1 g2
  rw [hsegs] at p2
  cases p2
  rw [List.flatten_nil, List.nil_append] at p1
  have hb : Bounded r.seg := run_bounded _ ⟨Nat.zero_le _, Nat.zero_le _⟩ he
  have hpart := Dash.groups_partition (l.dropLast.map (frm off ∘ Picture.au)) ⟨secs * BASE % 2 ^ 32, [], 0⟩
  rw [hnone, if_pos rfl] at hpart
  simp only [List.map_nil, List.flatten_nil, List.nil_append] at hpart
  refine ⟨hsegs, ?_, ?_⟩
  · have h3 := hb.1
    rw [g1.samples, Dash.mkSamples_length, hpart] at h3
    have hlen : ∀ k : List Picture, ((k.map (frm off ∘ Picture.au)).dropWhile (fun f => !f.intra)).length =
        (k.dropWhile (fun p => !p.key)).length := by
      intro k
      induction k with
      | nil => rfl
      | cons p k ih =>
        rw [List.map_cons, List.dropWhile_cons, List.dropWhile_cons]
        have : ((frm off ∘ Picture.au) p).intra = p.key := rfl
        rw [this]
        cases p.key with
        | true => simp
        | false => simpa using ih
    rw [hlen] at h3
    exact h3
  · have h3 := hb.2
    rw [p3, List.length_flatten, List.map_map, p1] at h3
    exact h3

end Lms.Record
