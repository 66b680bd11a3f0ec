import Verif.Record.Received

/-!
# C85: the initialisation file of a recording, and whole recordings
-/

namespace Lms.Record

open Nalu (Picture payload kindOf Whole)

/-! ## Where the decoder configuration comes from -/

/-- `x` is the configuration record made of parameter sets among the units `ns`. -/
def RecordOf (c : Nalu.Codec) (ns : List Nalu.Nal) (x : Bytes) : Prop :=
  match c with
  | .avc => ∃ a ∈ ns, ∃ b ∈ ns, kindOf c a = .sps ∧ kindOf c b = .pps ∧ Nalu.avcExtra (payload a) (payload b) = .ok x
  | .hevc => ∃ v ∈ ns, ∃ a ∈ ns, ∃ b ∈ ns, kindOf c v = .vps ∧ kindOf c a = .sps ∧ kindOf c b = .pps ∧
      Nalu.hevcExtra (payload v) (payload a) (payload b) = x

theorem RecordOf.mono {c : Nalu.Codec} {ns ms : List Nalu.Nal} {x : Bytes} (h : RecordOf c ns x) (hs : ∀ n ∈ ns, n ∈ ms) : RecordOf c ms x := by
  cases c with
  | avc => obtain ⟨a, ha, b, hb, h⟩ := h; exact ⟨a, hs a ha, b, hs b hb, h⟩
  | hevc => obtain ⟨v, hv, a, ha, b, hb, h⟩ := h; exact ⟨v, hs v hv, a, hs a ha, b, hs b hb, h⟩

/-- A stored set is one that was received. -/
def Got (c : Nalu.Codec) (k : Nalu.Kind) (ns : List Nalu.Nal) (d : Bytes) : Prop := d = [] ∨ ∃ n ∈ ns, kindOf c n = k ∧ d = payload n

structure Prov (c : Nalu.Codec) (ns : List Nalu.Nal) (s : Nalu.State) : Prop where
  codec : s.codec = c
  vps : Got c .vps ns s.vps
  sps : Got c .sps ns s.sps
  pps : Got c .pps ns s.pps
  extra : s.extra = [] ∨ RecordOf c ns s.extra

theorem Got.mono {c : Nalu.Codec} {k : Nalu.Kind} {ns : List Nalu.Nal} {d : Bytes} (h : Got c k ns d) (n : Nalu.Nal) : Got c k (ns ++ [n]) d := by
  rcases h with h | ⟨m, hm, h⟩
  · exact .inl h
  · exact .inr ⟨m, List.mem_append_left _ hm, h⟩

theorem Prov.mono {c : Nalu.Codec} {ns : List Nalu.Nal} {s : Nalu.State} (h : Prov c ns s) (n : Nalu.Nal) : Prov c (ns ++ [n]) s :=
  ⟨h.codec, h.vps.mono n, h.sps.mono n, h.pps.mono n, h.extra.imp id fun h => h.mono fun _ hm => List.mem_append_left _ hm⟩

/-- Only the sets, the codec and the record matter. -/
theorem Prov.of {c : Nalu.Codec} {ns : List Nalu.Nal} {s t : Nalu.State} (h : Prov c ns s) (h1 : t.codec = s.codec) (h2 : t.vps = s.vps)
    (h3 : t.sps = s.sps) (h4 : t.pps = s.pps) (h5 : t.extra = s.extra) : Prov c ns t :=
  ⟨h1.trans h.codec, h2 ▸ h.vps, h3 ▸ h.sps, h4 ▸ h.pps, h5 ▸ h.extra⟩

theorem note_prov {c : Nalu.Codec} {ns : List Nalu.Nal} {s : Nalu.State} (h : Prov c ns s) (n : Nalu.Nal) (k : Nalu.Kind) (hk : kindOf c n = k) :
    Prov c (ns ++ [n]) (Nalu.note s k (payload n)) := by
  have hm := h.mono n
  have hn : n ∈ ns ++ [n] := by simp
  cases k with
  | vps => exact ⟨hm.codec, .inr ⟨n, hn, hk, rfl⟩, hm.sps, hm.pps, hm.extra⟩
  | sps => exact ⟨hm.codec, hm.vps, .inr ⟨n, hn, hk, rfl⟩, hm.pps, hm.extra⟩
  | pps => exact ⟨hm.codec, hm.vps, hm.sps, .inr ⟨n, hn, hk, rfl⟩, hm.extra⟩
  | aud => exact hm
  | other => exact hm
  | sei => exact hm.of rfl rfl rfl rfl rfl
  | slice => exact hm.of rfl rfl rfl rfl rfl
  | key => exact hm.of rfl rfl rfl rfl rfl

theorem parse_prov {c : Nalu.Codec} {ns : List Nalu.Nal} {s s' : Nalu.State} {n : Nalu.Nal} {o : Option Nalu.Fr} (h : Prov c ns s)
    (hw : Whole n) (hk : kindOf c n ≠ .other) (he : Nalu.parseNal s n = .ok (s', o)) : Prov c (ns ++ [n]) s' := by
  obtain rfl := h.codec
  rw [Nalu.parse_whole hw hk] at he
  simp only at he
  have hn := note_prov (h.of (t := { s with prev := s.cur }) rfl rfl rfl rfl rfl) n (kindOf s.codec n) rfl
  generalize Nalu.note { s with prev := s.cur } (kindOf s.codec n) (payload n) = z at *
  generalize Nalu.ends z (kindOf s.codec n) n = e at he
  have hz : Prov s.codec (ns ++ [n]) (if e = true then { z with tmp := { z.out with data := [] }, out := z.tmp } else z) := by
    cases e with
    | true => exact hn.of rfl rfl rfl rfl rfl
    | false => exact hn
  generalize (if e = true then { z with tmp := { z.out with data := [] }, out := z.tmp } else z) = y at he hz
  by_cases h1 : kindOf s.codec n = .key ∨ kindOf s.codec n = .slice
  · rw [if_pos h1] at he
    by_cases h2 : y.max < (y.tmp.data.length + (payload n).length + 4) % 2 ^ 32
    · rw [if_pos h2] at he
      simp only [Outcome.ok.injEq, Prod.mk.injEq] at he
      rw [← he.1]; exact hz
    · rw [if_neg h2] at he
      by_cases h3 : y.max < y.tmp.data.length + 4 + (payload n).length
      · rw [if_pos h3] at he; cases he
      · rw [if_neg h3] at he
        simp only [Outcome.ok.injEq, Prod.mk.injEq] at he
        rw [← he.1]; exact hz.of rfl rfl rfl rfl rfl
  · rw [if_neg h1] at he
    simp only [Outcome.ok.injEq, Prod.mk.injEq] at he
    rw [← he.1]; exact hz

theorem update_prov {c : Nalu.Codec} {ns : List Nalu.Nal} {s s' : Nalu.State} (h : Prov c ns s) (he : Nalu.updateExtra s = .ok s') :
    Prov c ns s' := by
  unfold Nalu.updateExtra at he
  cases c with
  | avc =>
    simp only [h.codec] at he
    by_cases h1 : s.sps = [] ∨ s.pps = []
    · rw [if_pos h1] at he; cases he; exact h
    · rw [if_neg h1] at he
      obtain ⟨a, ha, a2, a3⟩ := h.sps.resolve_left fun e => h1 (.inl e)
      obtain ⟨b, hb, b2, b3⟩ := h.pps.resolve_left fun e => h1 (.inr e)
      cases hx : Nalu.avcExtra s.sps s.pps with
      | ub => rw [hx] at he; cases he
      | hang => rw [hx] at he; cases he
      | ok x =>
        rw [hx] at he
        simp only [Outcome.bind_ok] at he
        cases he
        refine ⟨rfl, h.vps, .inl rfl, .inl rfl, .inr ⟨a, ha, b, hb, a2, b2, ?_⟩⟩
        rw [← a3, ← b3]; exact hx
  | hevc =>
    simp only [h.codec] at he
    by_cases h1 : s.vps = [] ∨ s.sps = [] ∨ s.pps = []
    · rw [if_pos h1] at he; cases he; exact h
    · rw [if_neg h1] at he
      obtain ⟨v, hv, v2, v3⟩ := h.vps.resolve_left fun e => h1 (.inl e)
      obtain ⟨a, ha, a2, a3⟩ := h.sps.resolve_left fun e => h1 (.inr (.inl e))
      obtain ⟨b, hb, b2, b3⟩ := h.pps.resolve_left fun e => h1 (.inr (.inr e))
      cases he
      refine ⟨rfl, .inl rfl, .inl rfl, .inl rfl, .inr ⟨v, hv, a, ha, b, hb, v2, a2, b2, ?_⟩⟩
      rw [← v3, ← a3, ← b3]

theorem manage_prov {c : Nalu.Codec} {ns : List Nalu.Nal} {s s' : Nalu.State} {n : Nalu.Nal} {o : Option Nalu.Au} (h : Prov c ns s)
    (hw : Whole n) (hk : kindOf c n ≠ .other) (he : Nalu.manageFrame s n = .ok (s', o)) : Prov c (ns ++ [n]) s' := by
  unfold Nalu.manageFrame at he
  cases hp : Nalu.parseNal s n with
  | ub => rw [hp] at he; cases he
  | hang => rw [hp] at he; cases he
  | ok r =>
    rw [hp] at he
    simp only [Outcome.bind_ok] at he
    cases hu : Nalu.updateExtra r.1 with
    | ub => rw [hu] at he; cases he
    | hang => rw [hu] at he; cases he
    | ok z =>
      rw [hu] at he
      simp only [Outcome.bind_ok, Outcome.ok.injEq, Prod.mk.injEq] at he
      rw [← he.1]
      exact update_prov (parse_prov h hw hk hp) hu

/-- What an initialisation file says: the record of received parameter sets, the size of the picture it was written with (not
zero), and the time scale. -/
def Describes (c : Nalu.Codec) (ns : List Nalu.Nal) (w h : Nat) (b : Bytes) : Prop :=
  ∃ i, Isoff.readInit b = some i ∧ i.timescale = 12800 ∧ i.trackWidth = w % 2 ^ 16 * 2 ^ 16 ∧ i.trackHeight = h % 2 ^ 16 * 2 ^ 16 ∧
    w ≠ 0 ∧ h ≠ 0 ∧ RecordOf c ns i.config ∧
    match c with
    | .avc => i.entryType = ascii "avc1" ∧ i.configType = ascii "avcC"
    | .hevc => i.entryType = ascii "hev1" ∧ i.configType = ascii "hvcC"

/-- The writing of the initialisation file, on a prepared segmenter. -/
theorem init_describes {cap : Nat} (hcap : cap < 2 ^ 32) {c : Nalu.Codec} {ns : List Nalu.Nal} {a a' : Nalu.State} {s s' : Dash.State} {secs w h : Nat}
    {o : Option Bytes} (hp : Prov c ns a) (hmed : s.ctx.media = media c) (he : makeInit cap a (setup secs s w h) = .ok (a', s', o)) :
    Prov c ns a' ∧ s'.ctx.media = media c ∧ (∀ b, o = some b → Describes c ns w h b ∧ a'.extra = []) ∧
      (o = none → a' = a ∧ (a.extra = [] ∨ w = 0 ∨ h = 0)) := by
  unfold makeInit at he
  by_cases h1 : a.extra = []
  · rw [if_pos h1] at he
    cases he
    exact ⟨hp, hmed, (fun b hb => nomatch hb), fun _ => ⟨rfl, .inl h1⟩⟩
  rw [if_neg h1] at he
  by_cases h2 : (setup secs s w h).ctx.width = 0 ∨ (setup secs s w h).ctx.height = 0
  · rw [if_pos h2] at he
    cases he
    exact ⟨hp, hmed, (fun b hb => nomatch hb), fun _ => ⟨rfl, .inr h2⟩⟩
  rw [if_neg h2] at he
  have hx : RecordOf c ns a.extra := hp.extra.resolve_left h1
  cases hg : Isoff.initGenerator cap (setup secs s w h).ctx a.extra with
  | ub => rw [hg] at he; cases he
  | hang => rw [hg] at he; cases he
  | ok g =>
    rw [hg] at he
    simp only [Outcome.bind_ok] at he
    cases g with
    | err e =>
      exfalso
      unfold Isoff.initGenerator at hg
      split at hg
      · rename_i h3
        cases hl : a.extra with
        | nil => exact h1 hl
        | cons _ _ => rw [hl] at h3; simp at h3
      · unfold Isoff.store at hg
        simp only at hg
        split at hg <;> cases hg
    | out cc b =>
      simp only [Outcome.ok.injEq, Prod.mk.injEq] at he
      obtain ⟨e1, e2, e3⟩ := he
      have hcc : cc.media = media c := by
        unfold Isoff.initGenerator Isoff.store at hg
        split at hg
        · cases hg
        · simp only at hg
          split at hg
          · cases hg; exact hmed
          · cases hg
      refine ⟨?_, by rw [← e2]; exact hcc, ?_, fun hn => by rw [← e3] at hn; cases hn⟩
      · rw [← e1]; exact ⟨hp.codec, hp.vps, hp.sps, hp.pps, .inl rfl⟩
      · intro b' hb'
        rw [← e3] at hb'
        cases hb'
        refine ⟨?_, by rw [← e1]⟩
        obtain ⟨i, i1, _, _, _, i5, i6⟩ := Isoff.init_segment_values cap hcap _ _ _ _ hg
        have hm : (setup secs s w h).ctx.media = media c := hmed
        rw [hm] at i6
        have i5 : i.timescale = 12800 := i5.trans (show BASE % 2 ^ 32 = 12800 by decide)
        have hw : w ≠ 0 ∧ h ≠ 0 := ⟨fun e => h2 (.inl e), fun e => h2 (.inr e)⟩
        cases c with
        | avc =>
          obtain ⟨_, j2, j3, _, _, j6, j7, _⟩ := i6
          exact ⟨i, i1, i5, j2, j3, hw.1, hw.2, by rw [j6]; exact hx, j7 rfl⟩
        | hevc =>
          obtain ⟨_, j2, j3, _, _, j6, _, j8⟩ := i6
          exact ⟨i, i1, i5, j2, j3, hw.1, hw.2, by rw [j6]; exact hx, j8 rfl⟩

theorem moof_media (c : Isoff.Ctx) : (Isoff.moof c).1.media = c.media := rfl

theorem generator_media {cap : Nat} {c c' : Isoff.Ctx} {b : Bytes} (h : Isoff.segmentGenerator cap c = .ok (.out c' b)) : c'.media = c.media := by
  unfold Isoff.segmentGenerator at h
  by_cases h1 : c.data.length < 1
  · rw [if_pos h1] at h; cases h
  · rw [if_neg h1] at h
    simp only at h
    generalize hx : ({ c with
      trunPos := (c.trunPos + (Isoff.styp.length + (Isoff.sidx c).length)) % 2 ^ 32
      moofPos := (c.moofPos + (Isoff.styp.length + (Isoff.sidx c).length)) % 2 ^ 32 } : Isoff.Ctx) = x at h
    have hxm : x.media = c.media := by rw [← hx]
    have hm := moof_media x
    generalize Isoff.moof x = y at h hm
    unfold Isoff.store at h
    split at h
    · simp only [Outcome.ok.injEq, Isoff.Gen.out.injEq] at h
      rw [← h.1]
      exact hm.trans hxm
    · cases h

theorem close_media {cap : Nat} {s s' : Dash.State} {o : Option Dash.Seg} (he : Dash.close cap s = .ok (s', o)) :
    s'.ctx.media = s.ctx.media := by
  unfold Dash.close at he
  cases hg : Isoff.segmentGenerator cap s.ctx with
  | ub => rw [hg] at he; cases he
  | hang => rw [hg] at he; cases he
  | ok r =>
    rw [hg] at he
    simp only [Outcome.bind_ok] at he
    cases r with
    | err _ =>
      simp only [Outcome.ok.injEq, Prod.mk.injEq] at he
      rw [← he.1]
    | out c b =>
      simp only [Outcome.ok.injEq, Prod.mk.injEq] at he
      rw [← he.1]
      have := generator_media hg
      show c.media = s.ctx.media
      exact this

theorem generate_media {cap : Nat} {s s' : Dash.State} {i : Bool} {p : Nat} {o : Option Dash.Seg}
    (he : Dash.generateVideo cap s i p = .ok (s', o)) : s'.ctx.media = s.ctx.media := by
  have key : ∀ last, Dash.closeIf cap s i last = .ok (s', o) → s'.ctx.media = s.ctx.media := by
    intro last he
    unfold Dash.closeIf at he
    by_cases hc : i = true ∧ (s.target + 2 ^ 32 - last) % 2 ^ 32 ≤ (s.ctx.cur + last) % 2 ^ 32
    · rw [if_pos hc] at he
      have := close_media he
      exact this
    · rw [if_neg hc] at he
      simp only [Outcome.ok.injEq, Prod.mk.injEq] at he
      rw [← he.1]
  unfold Dash.generateVideo at he
  cases hl : s.ctx.samples.getLast? with
  | none =>
    rw [hl] at he
    simp only [Outcome.ok.injEq, Prod.mk.injEq] at he
    rw [← he.1]
  | some l =>
    rw [hl] at he
    exact key _ he

theorem set_media (s : Dash.State) (c : Nat) (l : List Isoff.Smp) (d : Bytes) :
    ({ s with ctx := { s.ctx with cur := c, samples := l, data := d } } : Dash.State).ctx.media = s.ctx.media := rfl

theorem add_media {s s' : Dash.State} {f : Dash.Frm} {b : Bool} (he : Dash.addVideo s f = .ok (s', b)) : s'.ctx.media = s.ctx.media := by
  unfold Dash.addVideo at he
  by_cases h1 : f.data.length < 1
  · rw [if_pos h1] at he; simp only [Outcome.ok.injEq, Prod.mk.injEq] at he; rw [← he.1]
  rw [if_neg h1] at he
  by_cases h2 : s.ctx.samples.isEmpty ∧ f.intra = false
  · rw [if_pos h2] at he; simp only [Outcome.ok.injEq, Prod.mk.injEq] at he; rw [← he.1]
  rw [if_neg h2] at he
  by_cases h3 : Isoff.MAX_DAT < s.ctx.data.length + f.data.length ∨ Isoff.MAX_MDAT_SAMPLE ≤ s.ctx.samples.length
  · rw [if_pos h3] at he; cases he
  rw [if_neg h3] at he
  simp only at he
  cases hl : s.ctx.samples.getLast? with
  | none => rw [hl] at he; simp only [Outcome.ok.injEq, Prod.mk.injEq] at he; rw [← he.1]
  | some l =>
    rw [hl] at he
    injection he with he
    injection he with he _
    exact (congrArg (fun x : Dash.State => x.ctx.media) he.symm).trans (set_media s _ _ _)

theorem videoFrame_media {cap : Nat} {s s' : Dash.State} {f : Dash.Frm} {o : Option Dash.Seg} (he : Dash.videoFrame cap s f = .ok (s', o)) :
    s'.ctx.media = s.ctx.media := by
  unfold Dash.videoFrame at he
  cases hg : Dash.generateVideo cap s f.intra f.pts with
  | ub => rw [hg] at he; cases he
  | hang => rw [hg] at he; cases he
  | ok r =>
    rw [hg] at he
    simp only [Outcome.bind_ok] at he
    cases ha : Dash.addVideo r.1 f with
    | ub => rw [ha] at he; cases he
    | hang => rw [ha] at he; cases he
    | ok q =>
      rw [ha] at he
      simp only [Outcome.bind_ok, Outcome.ok.injEq, Prod.mk.injEq] at he
      rw [← he.1]
      exact (add_media (b := q.2) ha).trans (generate_media (o := r.2) hg)

theorem step_init {cap : Nat} (hcap : cap < 2 ^ 32) {off : Int} {c : Nalu.Codec} {ns : List Nalu.Nal} {r r' : State} {i : Nalu.Nal × Bool} {o : Out}
    (hp : Prov c ns r.asm) (hmed : r.seg.ctx.media = media c) (hw : Whole i.1) (hk : kindOf c i.1 ≠ .other)
    (he : step cap off r i = .ok (r', o)) :
    Prov c (ns ++ [i.1]) r'.asm ∧ r'.seg.ctx.media = media c ∧ ∀ b, o.init = some b → ∃ w h, Describes c (ns ++ [i.1]) w h b := by
  unfold step at he
  cases hm : Nalu.manageFrame r.asm i.1 with
  | ub => rw [hm] at he; cases he
  | hang => rw [hm] at he; cases he
  | ok m =>
    rw [hm] at he
    simp only [Outcome.bind_ok] at he
    have hp2 : Prov c (ns ++ [i.1]) m.1 := manage_prov (o := m.2) hp hw hk hm
    split at he
    · simp only [Outcome.ok.injEq, Prod.mk.injEq] at he
      rw [← he.1, ← he.2]
      exact ⟨hp2, hmed, fun b hb => by cases hb⟩
    · rename_i au _
      cases hq : makeInit cap m.1 (setup r.secs r.seg au.width au.height) with
      | ub => rw [hq] at he; cases he
      | hang => rw [hq] at he; cases he
      | ok q =>
        rw [hq] at he
        simp only [Outcome.bind_ok] at he
        obtain ⟨q1, q2, q3, _⟩ := init_describes hcap (o := q.2.2) (a' := q.1) (s' := q.2.1) hp2 hmed hq
        split at he
        · simp only [Outcome.ok.injEq, Prod.mk.injEq] at he
          rw [← he.1, ← he.2]
          exact ⟨q1, q2, fun b hb => by cases hb⟩
        · cases hpt : ticks off au.pts with
          | ub => rw [hpt] at he; cases he
          | hang => rw [hpt] at he; cases he
          | ok p =>
            cases hd : ticks off au.dts with
            | ub => rw [hpt, hd] at he; cases he
            | hang => rw [hpt, hd] at he; cases he
            | ok d =>
              rw [hpt, hd] at he
              simp only [Outcome.bind_ok] at he
              cases hv : Dash.videoFrame cap q.2.1 ⟨au.data, p, d, au.intra⟩ with
              | ub => rw [hv] at he; cases he
              | hang => rw [hv] at he; cases he
              | ok v =>
                rw [hv] at he
                simp only [Outcome.bind_ok, Outcome.ok.injEq, Prod.mk.injEq] at he
                rw [← he.1, ← he.2]
                exact ⟨q1, (videoFrame_media (o := v.2) hv).trans q2, fun b hb => ⟨_, _, (q3 b hb).1⟩⟩

/-- **C85**: every initialisation file written by a recording describes parameter sets the stream has brought up to then, with the
size of a picture and 12800 ticks a second. -/
theorem init_files_describe (cap : Nat) (hcap : cap < 2 ^ 32) (off : Int) (c : Nalu.Codec) (m secs : Nat) (is : List (Nalu.Nal × Bool))
    (hw : ∀ i ∈ is, Whole i.1 ∧ kindOf c i.1 ≠ .other) (r : State) (outs : List Out)
    (he : runOps (step cap off) (new c m secs) is = .ok (r, outs)) :
    ∀ b ∈ outs.filterMap Out.init, ∃ w h, Describes c (is.map Prod.fst) w h b := by
  have key : ∀ (is : List (Nalu.Nal × Bool)) (ns : List Nalu.Nal) (q : State) (outs : List Out), (∀ i ∈ is, Whole i.1 ∧ kindOf c i.1 ≠ .other) →
      Prov c ns q.asm → q.seg.ctx.media = media c → runOps (step cap off) q is = .ok (r, outs) →
      ∀ b ∈ outs.filterMap Out.init, ∃ w h, Describes c (ns ++ is.map Prod.fst) w h b := by
    intro is
    induction is with
    | nil =>
      intro ns q outs _ _ _ he b hb
      simp [runOps] at he
      rw [he.2] at hb
      cases hb
    | cons i is ih =>
      intro ns q outs hw hp hmed he b hb
      obtain ⟨q1, o, outs', h1, h2, rfl⟩ := runOps_cons_ok he
      obtain ⟨w1, w2⟩ := hw i (by simp)
      obtain ⟨e1, e2, e3⟩ := step_init hcap hp hmed w1 w2 h1
      rw [List.map_cons]
      have hl := ih (ns ++ [i.1]) q1 outs' (fun x hx => hw x (by simp [hx])) e1 e2 h2
      simp only [List.append_assoc, List.singleton_append] at hl
      rw [List.filterMap_cons] at hb
      cases ho : o.init with
      | none => rw [ho] at hb; exact hl b hb
      | some x =>
        rw [ho] at hb
        rcases List.mem_cons.1 hb with rfl | hb
        · obtain ⟨w, h, i, i1, i2, i3, i4, i5, i6, i7, i8⟩ := e3 b ho
          refine ⟨w, h, i, i1, i2, i3, i4, i5, i6, i7.mono ?_, i8⟩
          intro n hn
          simp only [List.mem_append, List.mem_cons] at hn ⊢
          tauto
        · exact hl b hb
  exact key is [] (new c m secs) outs hw ⟨rfl, .inl rfl, .inl rfl, .inl rfl, .inl rfl⟩ rfl he

/-! ## Whole recordings -/

def unitOf (pts dts : Int) (body : Bytes) : Nalu.Nal := ⟨[0, 0, 0, 1] ++ body, 4 + body.length, pts, dts, 64, 32⟩

/-- A key picture with parameter sets, or another one. -/
def pic (pts dts : Int) (key : Bool) (b : UInt8) : Picture :=
  { pre := if key then [unitOf pts dts [0x67, 66, 0, 30], unitOf pts dts [0x68, 1]] else []
    slices := if key then [unitOf pts dts [0x65, b], unitOf pts dts [0x65, b, b]] else [unitOf pts dts [0x41, b]]
    pts := pts, dts := dts, width := 64, height := 32, key := key }

theorem pic_ok (pts dts : Int) (key : Bool) (b : UInt8) : (pic pts dts key b).Ok .avc := by
  have hl : ∀ x : Bytes, x ≠ [] → x.length < 100 → Whole (unitOf pts dts x) ∧ payload (unitOf pts dts x) = x := by
    intro x hx hl
    have hp : payload (unitOf pts dts x) = x := by
      unfold payload unitOf
      simp only
      have : (4 + x.length) = ([0, 0, 0, 1] ++ x : Bytes).length := by rw [List.length_append]; rfl
      rw [this, List.take_length]
      rfl
    refine ⟨⟨by simp [unitOf], by simp [unitOf]; omega, by simp [unitOf]; omega, by rw [hp]; exact hx⟩, hp⟩
  have hk : ∀ (x : UInt8) (r : Bytes), r.length < 50 → kindOf .avc (unitOf pts dts (x :: r)) = Nalu.kind .avc x := by
    intro x r hr
    unfold kindOf
    rw [(hl (x :: r) (by simp) (by simp; omega)).2]
  refine ⟨?_, ?_, by cases key <;> simp [pic]⟩
  · intro n hn
    cases key with
    | false => simp [pic] at hn
    | true =>
      simp only [pic, if_true, List.mem_cons, List.not_mem_nil, or_false] at hn
      rcases hn with rfl | rfl
      · exact ⟨(hl _ (by simp) (by decide)).1, by rw [hk _ _ (by decide)]; decide, rfl, fun _ => by rw [(hl _ (by simp) (by decide)).2]; decide⟩
      · exact ⟨(hl _ (by simp) (by decide)).1, by rw [hk _ _ (by decide)]; decide, rfl,
          fun h => by rw [hk _ _ (by decide)] at h; exact absurd h (by decide)⟩
  · intro n hn
    cases key with
    | false =>
      simp only [pic, Bool.false_eq_true, if_false, List.mem_cons, List.not_mem_nil, or_false] at hn
      subst hn
      exact ⟨(hl _ (by simp) (by simp)).1, by rw [hk _ _ (by simp)]; rfl, rfl, rfl, rfl, rfl⟩
    | true =>
      simp only [pic, if_true, List.mem_cons, List.not_mem_nil, or_false] at hn
      rcases hn with rfl | rfl
      · exact ⟨(hl _ (by simp) (by simp)).1, by rw [hk _ _ (by simp)]; rfl, rfl, rfl, rfl, rfl⟩
      · exact ⟨(hl _ (by simp) (by simp)).1, by rw [hk _ _ (by simp)]; rfl, rfl, rfl, rfl, rfl⟩

/-- Pictures 0.4 s apart, every third a key picture; `late`: distance from decoding to showing. -/
def film (dts : Bool) (late : Int) : List Picture :=
  [(5000000, true, 1), (5400000, false, 2), (5800000, false, 3), (6200000, true, 4), (6600000, false, 5), (7000000, false, 6),
    (7400000, true, 7), (7800000, false, 8)].map fun (t, k, b) => pic (t + late) (if dts then t else -1) k b

/-- A segment: its start, and the slices and the times a player finds. -/
structure Found where
  ts : Nat
  slices : List (Option (List Bytes))
  times : List Nat
  deriving DecidableEq

/-- Starts of the segments with the slices and the times a player finds, and the number of initialisation files. -/
def summary (x : Outcome (State × List Out)) : Option (List Found × Nat) :=
  match x with
  | .ok (_, outs) => some ((outs.filterMap Out.seg).map (fun s => ⟨s.ts, (Dash.played s).map (fun y => Nalu.units y.2),
      (((Isoff.demux s.bytes).map fun d => clock d.base (d.samples.map Prod.fst)).getD [])⟩), (outs.filterMap Out.init).length)
  | _ => none

def record (l : List (Nalu.Nal × Bool)) : Outcome (State × List Out) := runOps (step 1000 5000000) (new .avc 100 1) l

example : summary (record (((film true 0).flatMap Picture.nals).map (·, true))) =
    some ([⟨0, [some [[0x65, 1], [0x65, 1, 1]], some [[0x41, 2]], some [[0x41, 3]]], [0, 5120, 10240]⟩,
      ⟨15360, [some [[0x65, 4], [0x65, 4, 4]], some [[0x41, 5]], some [[0x41, 6]]], [15360, 20480, 25600]⟩], 3) := by decide +kernel

/-- **C85 (counterexample).**  Pictures shown 0.08 s (1024 ticks) after they are decoded: the segments start at the time the first is shown,
and a player shows everything another 0.08 s later. -/
theorem shown_late : summary (record (((film true 80000).flatMap Picture.nals).map (·, true))) =
    some ([⟨1024, [some [[0x65, 1], [0x65, 1, 1]], some [[0x41, 2]], some [[0x41, 3]]], [2048, 7168, 12288]⟩,
      ⟨16384, [some [[0x65, 4], [0x65, 4, 4]], some [[0x41, 5]], some [[0x41, 6]]], [17408, 22528, 27648]⟩], 3) := by decide +kernel

/-- The same film without decode times: nothing is written but the initialisation files. -/
example : summary (record (((film false 0).flatMap Picture.nals).map (·, true))) = some ([], 3) := by decide +kernel

/-- **C85 (counterexample).**  If the initialisation file cannot be written once, the picture it was to be written with is left out;
when that is the key picture, all pictures up to the next key picture are lost, and the file is not tried again until parameter sets come. -/
theorem unwritable_init_loses_pictures : summary (record
    ((((film true 0).take 1).flatMap Picture.nals).map (·, true) ++ (((film true 0).drop 1).take 2 |>.flatMap Picture.nals).map (·, false) ++
      (((film true 0).drop 3).flatMap Picture.nals).map (·, true))) =
    some ([⟨15360, [some [[0x65, 4], [0x65, 4, 4]], some [[0x41, 5]], some [[0x41, 6]]], [15360, 20480, 25600]⟩], 2) := by decide +kernel

/-- The hypotheses of `recording_plays_back` are met by the film. -/
example : ∃ r outs parts rest, record (((film true 0).flatMap Picture.nals).map (·, true)) = .ok (r, outs) ∧
    List.flatten parts ++ rest = (film true 0).dropLast.dropWhile (fun p => !p.key) ∧
      List.Forall₂ (Plays 5000000) (outs.filterMap Out.seg) parts ∧ (outs.filterMap Out.seg).length = 2 := by
  cases h : record (((film true 0).flatMap Picture.nals).map (·, true)) with
  | ub => exact absurd (congrArg (fun x => (summary x).isSome) h) (by decide +kernel)
  | hang => exact absurd (congrArg (fun x => (summary x).isSome) h) (by decide +kernel)
  | ok x =>
    obtain ⟨r, outs⟩ := x
    obtain ⟨parts, rest, h1, h2, _⟩ := recording_plays_back 1000 (by decide) .avc 100 (by decide) 1 5000000 (film true 0)
      (by
        simp only [film, List.map_cons, List.map_nil, Nalu.Chain, and_true]
        refine ⟨?_, ?_, ?_, ?_, ?_, ?_, ?_⟩ <;> exact .inr (by decide))
      (by
        intro p hp
        simp only [film, List.map_cons, List.map_nil, List.mem_cons, List.not_mem_nil, or_false] at hp
        rcases hp with rfl | rfl | rfl | rfl | rfl | rfl | rfl | rfl <;> exact ⟨pic_ok _ _ _ _, by decide +kernel⟩)
      r outs h
    refine ⟨r, outs, parts, rest, rfl, h1, h2, ?_⟩
    have : (summary (.ok (r, outs))).map (fun z => z.1.length) = some 2 := by rw [← h]; decide +kernel
    simpa [summary] using this

end Lms.Record
