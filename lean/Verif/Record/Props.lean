import Verif.Record.Model
import Mathlib.Data.List.Forall2

/-!
# C85: a recorded video stream plays back

Whole way of a video stream into the files of the DASH filter and back: units in, pictures out.
-/

namespace Lms.Record

open Nalu (Picture payload units)
open Isoff (demux RunSample)

/-! ## Specification -/

/-- Whole ticks since the origin, rounded towards it, as a number of 64 bits. -/
def tick (off micros : Int) : Nat := (((micros - off) * 12800).tdiv 1000000 % 2 ^ 64).toNat

/-- When a player shows the samples of a run: the decode time moves on by the durations, the offset is added. -/
def clock : Nat → List RunSample → List Nat
  | _, [] => []
  | t, s :: l => (t + s.offset.getD 0) :: clock (t + s.duration.getD 0) l

/-- What a player finds in a segment made of the pictures `ps`: exactly their slices, one sample for each picture, key pictures
marked; the first is a key picture and gives the segment its start; and every picture is shown at its own time, late by
the distance between the two times of the first. -/
def Plays (off : Int) (s : Dash.Seg) (ps : List Picture) : Prop :=
  ∃ a l d, ps = a :: l ∧ a.key = true ∧ demux s.bytes = some d ∧ d.after = [] ∧
    d.samples.map (fun x => (units x.2, x.1.flags)) =
      ps.map (fun p => (some (p.slices.map payload), some (if p.key then 0 else 0x10000))) ∧
    s.ts = tick off a.pts ∧ d.base = s.ts ∧
    (clock d.base (d.samples.map Prod.fst)).map (fun (t : Nat) => (t : Int) % 2 ^ 32) =
      ps.map (fun p => ((tick off p.pts : Int) + (tick off a.pts - tick off a.dts)) % 2 ^ 32)

/-! ## The assembler does not look at what is announced -/

theorem parse_extra (s : Nalu.State) (n : Nalu.Nal) (x : Bytes) :
    Nalu.parseNal { s with extra := x } n = (Nalu.parseNal s n).map fun r => ({ r.1 with extra := x }, r.2) := by
  unfold Nalu.parseNal
  cases hd : Nalu.detectStartCode n.buf with
  | ub => rfl
  | hang => rfl
  | ok off =>
    simp only [Outcome.bind_ok]
    by_cases h1 : n.len = off ∨ s.codec = .hevc ∧ n.len < off
    · rw [if_pos h1, if_pos h1]; rfl
    · rw [if_neg h1, if_neg h1]
      cases hs : n.buf.drop off with
      | nil => rfl
      | cons b r =>
        simp only
        by_cases h2 : Nalu.kind s.codec b = .other
        · rw [if_pos h2, if_pos h2]; rfl
        · rw [if_neg h2, if_neg h2]
          by_cases h3 : (Nalu.kind s.codec b = .vps ∨ Nalu.kind s.codec b = .sps ∨ Nalu.kind s.codec b = .pps) ∧
              (b :: r).length < (n.len + 2 ^ 32 - off) % 2 ^ 32
          · rw [if_pos h3, if_pos h3]; rfl
          · rw [if_neg h3, if_neg h3]
            have hn : ∀ (k : Nalu.Kind) (d : Bytes) (y : Nalu.State), Nalu.note { y with extra := x } k d = { Nalu.note y k d with extra := x } := by
              intro k d y; cases k <;> rfl
            have hN := hn (Nalu.kind s.codec b) ((b :: r).take ((n.len + 2 ^ 32 - off) % 2 ^ 32)) { s with prev := s.cur }
            simp only at hN
            rw [hN]
            generalize Nalu.note { s with prev := s.cur } (Nalu.kind s.codec b) ((b :: r).take ((n.len + 2 ^ 32 - off) % 2 ^ 32)) = z
            have he : Nalu.ends { z with extra := x } (Nalu.kind s.codec b) n = Nalu.ends z (Nalu.kind s.codec b) n := rfl
            rw [he]
            generalize Nalu.ends z (Nalu.kind s.codec b) n = e
            generalize (n.len + 2 ^ 32 - off) % 2 ^ 32 = k
            by_cases h4 : Nalu.kind s.codec b = .key ∨ Nalu.kind s.codec b = .slice
            · simp only [if_pos h4]
              cases e with
              | true =>
                simp only [if_true]
                cases Nalu.appendNal z.max { z.out with data := [] } (b :: r) k n <;> rfl
              | false =>
                simp only [Bool.false_eq_true, if_false]
                cases Nalu.appendNal z.max z.tmp (b :: r) k n <;> rfl
            · simp only [if_neg h4]
              cases e <;> rfl

theorem update_extra (s s1 : Nalu.State) (x : Bytes) (h : Nalu.updateExtra s = .ok s1) :
    ∃ y, Nalu.updateExtra { s with extra := x } = .ok { s1 with extra := y } := by
  unfold Nalu.updateExtra at h ⊢
  cases hc : s.codec with
  | avc =>
    simp only [hc] at h ⊢
    by_cases h1 : s.sps = [] ∨ s.pps = []
    · rw [if_pos h1] at h ⊢; cases h; exact ⟨x, by rw [← hc]⟩
    · rw [if_neg h1] at h ⊢
      cases ha : Nalu.avcExtra s.sps s.pps with
      | ub => rw [ha] at h; cases h
      | hang => rw [ha] at h; cases h
      | ok b =>
        rw [ha] at h
        simp only [Outcome.bind_ok] at h
        cases h
        exact ⟨b, by rw [← hc]; rfl⟩
  | hevc =>
    simp only [hc] at h ⊢
    by_cases h1 : s.vps = [] ∨ s.sps = [] ∨ s.pps = []
    · rw [if_pos h1] at h ⊢; cases h; exact ⟨x, by rw [← hc]⟩
    · rw [if_neg h1] at h ⊢
      cases h
      exact ⟨Nalu.hevcExtra s.vps s.sps s.pps, by rw [← hc]⟩

theorem manage_extra (s s1 : Nalu.State) (n : Nalu.Nal) (o : Option Nalu.Au) (x : Bytes) (h : Nalu.manageFrame s n = .ok (s1, o)) :
    ∃ y, Nalu.manageFrame { s with extra := x } n = .ok ({ s1 with extra := y }, o) := by
  unfold Nalu.manageFrame at h ⊢
  rw [parse_extra]
  cases hp : Nalu.parseNal s n with
  | ub => rw [hp] at h; cases h
  | hang => rw [hp] at h; cases h
  | ok r =>
    rw [hp] at h
    simp only [Outcome.bind_ok, Outcome.map_ok] at h ⊢
    cases hu : Nalu.updateExtra r.1 with
    | ub => rw [hu] at h; cases h
    | hang => rw [hu] at h; cases h
    | ok z =>
      rw [hu] at h
      simp only [Outcome.bind_ok] at h
      obtain ⟨y, hy⟩ := update_extra r.1 z x hu
      refine ⟨y, ?_⟩
      rw [hy]
      simp only [Outcome.bind_ok]
      simp only [Outcome.ok.injEq, Prod.mk.injEq] at h ⊢
      exact ⟨by rw [h.1], h.2⟩

/-! ## Frames -/

/-- The frame the segmenter is given for an assembled one. -/
def frm (off : Int) (a : Nalu.Au) : Dash.Frm := ⟨a.data, tick off a.pts, tick off a.dts, a.intra⟩

theorem tick_lt (off m : Int) : tick off m < 2 ^ 64 := by unfold tick; omega

theorem ticks_tick {off m : Int} {t : Nat} (h : ticks off m = .ok t) : t = tick off m := by
  unfold ticks at h
  simp only at h
  split at h
  · cases h
  · cases h; rfl

theorem setup_rel {s : Dash.State} {t : Dash.Spec} (h : Dash.Rel s t) (secs w k : Nat) (ht : t.target = secs * BASE % 2 ^ 32) :
    Dash.Rel (setup secs s w k) t :=
  ⟨h.video, h.pos, h.data, h.samples, h.ept, ht.symm, h.nseg, h.tlt, h.valid⟩

theorem init_rel {cap : Nat} {a a' : Nalu.State} {s s' : Dash.State} {o : Option Bytes} {t : Dash.Spec} (h : Dash.Rel s t)
    (he : makeInit cap a s = .ok (a', s', o)) : Dash.Rel s' t ∧ ∃ y, a' = { a with extra := y } := by
  unfold makeInit at he
  split at he
  · cases he; exact ⟨h, a.extra, rfl⟩
  split at he
  · cases he; exact ⟨h, a.extra, rfl⟩
  unfold Isoff.initGenerator Isoff.store at he
  split at he
  · cases he; exact ⟨h, a.extra, rfl⟩
  simp only at he
  split at he
  · simp only [Outcome.bind_ok] at he
    cases he
    exact ⟨⟨h.video, h.pos, h.data, h.samples, h.ept, h.target, h.nseg, h.tlt, h.valid⟩, [], rfl⟩
  · cases he

theorem manage_nonempty {s s' : Nalu.State} {n : Nalu.Nal} {au : Nalu.Au} (h : Nalu.manageFrame s n = .ok (s', some au)) :
    0 < au.data.length := by
  unfold Nalu.manageFrame at h
  cases hp : Nalu.parseNal s n with
  | ub => rw [hp] at h; cases h
  | hang => rw [hp] at h; cases h
  | ok r =>
    rw [hp] at h
    simp only [Outcome.bind_ok] at h
    cases hu : Nalu.updateExtra r.1 with
    | ub => rw [hu] at h; cases h
    | hang => rw [hu] at h; cases h
    | ok z =>
      rw [hu] at h
      simp only [Outcome.bind_ok, Outcome.ok.injEq, Prod.mk.injEq] at h
      obtain ⟨_, h⟩ := h
      split at h
      · cases h
      · split at h
        · cases h
        · rename_i hz
          cases h
          exact Nat.pos_of_ne_zero hz

/-- One unit: either nothing happens to the segments, or the finished frame goes to the rule. -/
theorem step_refines {cap : Nat} (hcap : cap < 2 ^ 32) {off : Int} {r r' : State} {t : Dash.Spec} {n : Nalu.Nal} {o : Out}
    {a a' : Nalu.State} {m : Option Nalu.Au} {x : Bytes} (hr : Dash.Rel r.seg t) (ht : t.target = r.secs * BASE % 2 ^ 32)
    (ha : r.asm = { a with extra := x }) (hm : Nalu.manageFrame a n = .ok (a', m)) (he : step cap off r (n, true) = .ok (r', o)) :
    r'.secs = r.secs ∧ (∃ y, r'.asm = { a' with extra := y }) ∧
    match m with
    | none => Dash.Rel r'.seg t ∧ o.seg = none ∧ o.init = none
    | some au => Dash.Rel r'.seg (t.step (frm off au)).1 ∧ Dash.Matches o.seg (t.step (frm off au)).2 := by
  obtain ⟨y, hy⟩ := manage_extra a a' n m x hm
  unfold step at he
  simp only at he
  rw [ha, hy] at he
  simp only [Outcome.bind_ok] at he
  cases m with
  | none =>
    simp only at he
    cases he
    exact ⟨rfl, ⟨y, rfl⟩, hr, rfl, rfl⟩
  | some au =>
    simp only at he
    cases hq : makeInit cap { a' with extra := y } (setup r.secs r.seg au.width au.height) with
    | ub => rw [hq] at he; cases he
    | hang => rw [hq] at he; cases he
    | ok q =>
      obtain ⟨qa, qs, qi⟩ := q
      rw [hq] at he
      simp only [Outcome.bind_ok] at he
      rw [if_neg (by simp)] at he
      obtain ⟨hr2, z, hz⟩ := init_rel (setup_rel hr r.secs au.width au.height ht) hq
      cases hp : ticks off au.pts with
      | ub => rw [hp] at he; cases he
      | hang => rw [hp] at he; cases he
      | ok p =>
        cases hd : ticks off au.dts with
        | ub => rw [hp, hd] at he; cases he
        | hang => rw [hp, hd] at he; cases he
        | ok d =>
          rw [hp, hd] at he
          simp only [Outcome.bind_ok] at he
          cases hv : Dash.videoFrame cap qs ⟨au.data, p, d, au.intra⟩ with
          | ub => rw [hv] at he; cases he
          | hang => rw [hv] at he; cases he
          | ok v =>
            rw [hv] at he
            simp only [Outcome.bind_ok] at he
            cases he
            have ef : (⟨au.data, p, d, au.intra⟩ : Dash.Frm) = frm off au := by
              rw [ticks_tick hp, ticks_tick hd]; rfl
            rw [ef] at hv
            have hval : (frm off au).Valid := ⟨manage_nonempty hm, tick_lt _ _, tick_lt _ _⟩
            obtain ⟨g1, g2⟩ := Dash.frame_refines hcap hr2 hval hv
            exact ⟨rfl, ⟨z, hz⟩, g1, g2⟩

theorem step_target (t : Dash.Spec) (f : Dash.Frm) : (t.step f).1.target = t.target := by
  rcases Dash.step_cases t f with ⟨_, h2, _⟩ | ⟨_, _, _, h4, _⟩ | ⟨_, _, h3, _⟩
  · rw [h2]
  · rw [h4]
  · rw [h3]

/-- A whole stream of units against the rule. -/
theorem run_refines {cap : Nat} (hcap : cap < 2 ^ 32) {off : Int} (ns : List Nalu.Nal) {r r' : State} {t : Dash.Spec}
    {outs : List Out} {a a' : Nalu.State} {os : List (Option Nalu.Au)} {x : Bytes} (hr : Dash.Rel r.seg t)
    (ht : t.target = r.secs * BASE % 2 ^ 32) (ha : r.asm = { a with extra := x })
    (hm : runOps Nalu.manageFrame a ns = .ok (a', os))
    (he : runOps (step cap off) r (ns.map (·, true)) = .ok (r', outs)) :
    Dash.Rel r'.seg (t.run ((os.filterMap id).map (frm off))).1 ∧
      List.Forall₂ Dash.Faithful (outs.filterMap Out.seg) (t.groups ((os.filterMap id).map (frm off))) := by
  induction ns generalizing r t outs a os x with
  | nil =>
    simp [runOps] at he hm
    obtain ⟨rfl, rfl⟩ := he
    obtain ⟨rfl, rfl⟩ := hm
    exact ⟨hr, by simp [Dash.Spec.groups, Dash.Spec.run]⟩
  | cons n ns ih =>
    rw [List.map_cons] at he
    obtain ⟨r1, o, outs', h1, h2, rfl⟩ := runOps_cons_ok he
    obtain ⟨a1, m, os', m1, m2, rfl⟩ := runOps_cons_ok hm
    obtain ⟨e1, ⟨y, e2⟩, e3⟩ := step_refines hcap hr ht ha m1 h1
    cases m with
    | none =>
      obtain ⟨e3, e4, _⟩ := e3
      obtain ⟨g1, g2⟩ := ih e3 (by rw [e1]; exact ht) e2 m2 h2
      simp only [List.filterMap_cons, id, e4]
      exact ⟨g1, g2⟩
    | some au =>
      obtain ⟨e3, e4⟩ := e3
      obtain ⟨g1, g2⟩ := ih e3 (by rw [step_target, e1]; exact ht) e2 m2 h2
      simp only [List.filterMap_cons, id, List.map_cons]
      refine ⟨g1, ?_⟩
      rw [Dash.groups_cons]
      cases ho : o.seg with
      | none =>
        cases hs : (t.step (frm off au)).2 with
        | none => exact g2
        | some c => rw [ho, hs] at e4; exact e4.elim
      | some s =>
        cases hs : (t.step (frm off au)).2 with
        | none => rw [ho, hs] at e4; exact e4.elim
        | some c =>
          rw [ho, hs] at e4
          exact .cons e4 g2

/-! ## Times a player finds -/

theorem clock_playable (g : List Dash.Frm) (next t : Nat) (k : Int) (h : ∀ a, g.head? = some a → ((t : Int) - a.dts - k) % 2 ^ 32 = 0) :
    (clock t ((Dash.playable g next).map Prod.fst)).map (fun (t : Nat) => (t : Int) % 2 ^ 32) = g.map fun f => ((f.pts : Int) + k) % 2 ^ 32 := by
  fun_induction Dash.playable g next generalizing t with
  | case1 => rfl
  | case2 f next =>
    have := h f rfl
    simp only [List.map_cons, List.map_nil, clock, Option.getD_some, Dash.wrap, List.cons.injEq, and_true]
    omega
  | case3 f g l next ih =>
    have h0 := h f rfl
    simp only [List.map_cons, clock, Option.getD_some]
    simp only [List.map_cons] at ih
    rw [ih _ (by
      intro a ha
      simp only [List.head?_cons, Option.some.injEq] at ha
      subst ha
      unfold Dash.wrap
      omega)]
    refine congrArg (· :: _) ?_
    unfold Dash.wrap
    omega

theorem playable_flags (g : List Dash.Frm) (next : Nat) :
    (Dash.playable g next).map (fun x => (units x.2, x.1.flags)) = g.map fun f => (units f.data, some (if f.intra then 0 else 0x10000)) := by
  fun_induction Dash.playable g next with
  | case1 => rfl
  | case2 => rfl
  | case3 f g l next ih => simp only [List.map_cons] at ih ⊢; rw [ih]

/-- Cutting a list that is an image. -/
theorem cut_image {α β : Type} (g : α → β) (L : List (List β)) (r : List β) (l : List α) (h : L.flatten ++ r = l.map g) :
    ∃ (P : List (List α)) (q : List α), P.flatten ++ q = l ∧ L = P.map (List.map g) ∧ r = q.map g := by
  induction L generalizing l with
  | nil => exact ⟨[], l, rfl, rfl, by simpa using h⟩
  | cons x L ih =>
    rw [List.flatten_cons, List.append_assoc] at h
    obtain ⟨l1, l2, rfl, h1, h2⟩ := List.map_eq_append_iff.1 h.symm
    obtain ⟨P, q, h3, h4, h5⟩ := ih l2 h2.symm
    exact ⟨l1 :: P, q, by rw [List.flatten_cons, List.append_assoc, h3], by rw [h4, List.map_cons, h1], h5⟩

theorem unit_lengths {c : Nalu.Codec} {p : Picture} (h : p.Ok c) : ∀ u ∈ p.slices.map payload, u.length < 2 ^ 32 := by
  intro u hu
  obtain ⟨n, hn, rfl⟩ := List.mem_map.1 hu
  have hw := (h.slices n hn).1
  obtain ⟨_, h1, h2, h3⟩ := Nalu.strip_drop hw
  have := hw.2.1
  have := hw.2.2.1
  omega

theorem faithful_plays {c : Nalu.Codec} {off : Int} {s : Dash.Seg} {g : Dash.Closed} {ps : List Picture} (hp : ∀ p ∈ ps, p.Ok c)
    (hf : Dash.Faithful s g) (he : g.frames = ps.map fun p => frm off p.au) (hk : ∃ a l, g.frames = a :: l ∧ a.intra = true) :
    Plays off s ps := by
  obtain ⟨b, l, hb, hi⟩ := hk
  obtain ⟨a, l', rfl, ha, hl⟩ : ∃ a l', ps = a :: l' ∧ frm off a.au = b ∧ l'.map (fun p => frm off p.au) = l := by
    rw [he] at hb
    cases ps with
    | nil => cases hb
    | cons a l' => cases hb; exact ⟨a, l', rfl, rfl, rfl⟩
  obtain ⟨h1, h2, d, d1, d2, d3, d4, d5, _⟩ := hf
  refine ⟨a, l', d, rfl, by rw [← ha] at hi; exact hi, d1, d3, ?_, ?_, d5, ?_⟩
  · rw [d2, playable_flags, he, List.map_map]
    refine List.map_congr_left fun p hp' => ?_
    simp only [Function.comp, frm, Picture.au]
    rw [Nalu.units_sample _ (unit_lengths (hp p hp'))]
    rfl
  · rw [h1, hb, ← ha]; rfl
  · have hts : s.ts = tick off a.pts := by rw [h1, hb, ← ha]; rfl
    rw [d2, d5, hts, clock_playable g.frames g.next (tick off a.pts) (tick off a.pts - tick off a.dts), he, List.map_map]
    · rfl
    · intro z hz
      rw [hb] at hz
      simp only [List.head?_cons, Option.some.injEq] at hz
      rw [← hz, ← ha]
      show ((tick off a.pts : Int) - tick off a.dts - _) % 2 ^ 32 = 0
      have : (tick off a.pts : Int) - tick off a.dts - (tick off a.pts - tick off a.dts) = 0 := by omega
      rw [this]; rfl

/-- **C85.**  Feed the units of any well-formed stream of pictures to a new video input whose buffers do not overflow and
whose initialisation file can be written.  The segments it finishes, played one after the other, show exactly the pictures from the
first key picture on, in order, each once, but for those still collected (which are the newest) and the last picture. -/
theorem recording_plays_back (cap : Nat) (hcap : cap < 2 ^ 32) (c : Nalu.Codec) (m : Nat) (hm : m < 2 ^ 31) (secs : Nat) (off : Int)
    (l : List Picture) (hc : Nalu.Chain c l) (hl : ∀ p ∈ l, p.Ok c ∧ p.au.data.length ≤ m) (r : State) (outs : List Out)
    (he : runOps (step cap off) (new c m secs) ((l.flatMap Picture.nals).map (·, true)) = .ok (r, outs)) :
    ∃ (parts : List (List Picture)) (rest : List Picture), parts.flatten ++ rest = l.dropLast.dropWhile (fun p => !p.key) ∧
      List.Forall₂ (Plays off) (outs.filterMap Out.seg) parts ∧
      r.seg.ctx.data = (rest.map fun p => p.au.data).flatten := by
  obtain ⟨s', os, h1, h2⟩ := Nalu.pictures_are_assembled c m hm (new c m secs).asm ⟨rfl, rfl, .inl rfl⟩ rfl l hc hl
  have hv : (media c).isVideo = true := by cases c <;> rfl
  have hrel : Dash.Rel (new c m secs).seg ⟨secs * BASE % 2 ^ 32, [], 0⟩ := Dash.fresh_rel hv (Nat.mod_lt _ (by decide)) [] BASE 0 0
  obtain ⟨g1, g2⟩ := run_refines hcap (l.flatMap Picture.nals) hrel rfl rfl h1 he
  rw [h2, List.map_map] at g1 g2
  have hpart := Dash.groups_partition (l.dropLast.map (frm off ∘ Picture.au)) ⟨secs * BASE % 2 ^ 32, [], 0⟩
  rw [if_pos rfl, List.nil_append] at hpart
  have hdrop : (l.dropLast.map (frm off ∘ Picture.au)).dropWhile (fun f => !f.intra) =
      (l.dropLast.dropWhile (fun p => !p.key)).map (frm off ∘ Picture.au) := by
    generalize l.dropLast = k
    induction k with
    | nil => rfl
    | cons p k ih =>
      rw [List.map_cons, List.dropWhile_cons, List.dropWhile_cons]
      have : ((frm off ∘ Picture.au) p).intra = p.key := rfl
      rw [this]
      cases p.key with
      | true => simp
      | false => simpa using ih
  rw [hdrop] at hpart
  obtain ⟨P, q, p1, p2, p3⟩ := cut_image _ _ _ _ hpart
  have hint := Dash.groups_start_intra (l.dropLast.map (frm off ∘ Picture.au)) ⟨secs * BASE % 2 ^ 32, [], 0⟩ (by simp)
  have hmem : ∀ ps ∈ P, ∀ p ∈ ps, p.Ok c := by
    intro ps hps p hp
    have : p ∈ l.dropLast.dropWhile (fun p => !p.key) := by
      rw [← p1]; exact List.mem_append_left _ (List.mem_flatten.2 ⟨ps, hps, hp⟩)
    exact (hl p (List.dropLast_subset l ((List.dropWhile_sublist _).subset this))).1
  refine ⟨P, q, p1, ?_, ?_⟩
  · clear p1 hpart g1 p3
    generalize outs.filterMap Out.seg = S at g2 ⊢
    generalize Dash.Spec.groups ⟨secs * BASE % 2 ^ 32, [], 0⟩ (l.dropLast.map (frm off ∘ Picture.au)) = G at *
    induction g2 generalizing P with
    | nil =>
      cases P with
      | nil => exact .nil
      | cons _ _ => cases p2
    | cons hf _ ih =>
      cases P with
      | nil => cases p2
      | cons ps P =>
        simp only [List.map_cons, List.cons.injEq] at p2
        exact .cons (faithful_plays (hmem ps (by simp)) hf p2.1 (hint _ (by simp)))
          (ih P (fun x hx => hmem x (by simp [hx])) p2.2 (fun x hx => hint x (by simp [hx])))
  · rw [g1.data, p3, List.map_map]; rfl

/-- **C85**: if every picture is shown when it is decoded, a player shows every picture exactly at its own time. -/
theorem shown_at_its_time (off : Int) (s : Dash.Seg) (ps : List Picture) (h : Plays off s ps) (hd : ∀ p ∈ ps, p.dts = p.pts) :
    ∃ d, demux s.bytes = some d ∧ (clock d.base (d.samples.map Prod.fst)).map (fun (t : Nat) => (t : Int) % 2 ^ 32) =
      ps.map fun p => (tick off p.pts : Int) % 2 ^ 32 := by
  obtain ⟨a, l, d, rfl, _, h1, _, _, _, _, h2⟩ := h
  refine ⟨d, h1, h2.trans ?_⟩
  rw [hd a (by simp)]
  refine List.map_congr_left fun p _ => ?_
  rw [Int.sub_self, Int.add_zero]

/-- Ticks are the time since the origin, rounded down. -/
theorem tick_is_time (off m : Int) (h0 : off ≤ m) (h1 : (m - off) * 12800 < 2 ^ 63) :
    (tick off m : Int) * 1000000 ≤ (m - off) * 12800 ∧ (m - off) * 12800 < (tick off m : Int) * 1000000 + 1000000 ∧
    ticks off m = .ok (tick off m) := by
  have hn : 0 ≤ (m - off) * 12800 := by omega
  have e : ((m - off) * 12800).tdiv 1000000 = ((m - off) * 12800) / 1000000 := Int.tdiv_eq_ediv_of_nonneg hn
  have et : (tick off m : Int) = (m - off) * 12800 / 1000000 := by
    unfold tick
    rw [e, Int.emod_eq_of_lt (by omega) (by omega)]
    exact Int.toNat_of_nonneg (by omega)
  refine ⟨?_, ?_, ?_⟩
  · rw [et]; omega
  · rw [et]; omega
  · unfold ticks
    simp only [BASE]
    rw [if_neg (by omega)]
    rfl

/-- A time can be converted exactly if its distance from the origin, in ticks per million, fits in 64 bits. -/
theorem ticks_defined (off m : Int) : (∃ t, ticks off m = .ok t) ↔ (-2 ^ 63 ≤ (m - off) * 12800 ∧ (m - off) * 12800 < 2 ^ 63) := by
  unfold ticks
  simp only [BASE]
  generalize hx : (m - off) * ((12800 : Nat) : Int) = x
  constructor
  · rintro ⟨t, h⟩
    split at h
    · cases h
    · omega
  · intro h
    rw [if_neg (by omega)]
    exact ⟨_, rfl⟩

end Lms.Record
