import Verif.Live.Run
import Verif.Live.Spec

/-!
# C87: a player that follows the manifest plays the recording, at every moment
-/

namespace Lms.Live

open Lms.Json Lms.Control
open Lms.Manifest (El VRep ARep setId mediaTemplate initTemplate segmentName initName Facts Known Rel Says read lastOf expand)
open Nalu (Picture)

/-! ## From what is on disk to what a player finds -/

theorem forall₂_take {α β : Type} {R : α → β → Prop} {l : List α} {m : List β} (h : List.Forall₂ R l m) (n : Nat) :
    List.Forall₂ R (l.take n) (m.take n) := by
  induction h generalizing n with
  | nil => simp
  | cons h1 _ ih =>
    cases n with
    | zero => exact .nil
    | succ n => exact .cons h1 (ih n)

theorem forall₂_drop {α β : Type} {R : α → β → Prop} {l : List α} {m : List β} (h : List.Forall₂ R l m) (n : Nat) :
    List.Forall₂ R (l.drop n) (m.drop n) := by
  induction h generalizing n with
  | nil => simp
  | cons h1 h2 ih =>
    cases n with
    | zero => exact .cons h1 h2
    | succ n => exact ih n

theorem forall₂_last {α β : Type} {R : α → β → Prop} {l : List α} {m : List β} (h : List.Forall₂ R l m) (W : Nat) :
    List.Forall₂ R (lastOf W l) (lastOf W m) := by
  unfold lastOf
  rw [← h.length_eq]
  exact forall₂_drop h _

theorem forall₂_mem {α β : Type} {R Q : α → β → Prop} {l : List α} {m : List β} (h : List.Forall₂ R l m) (hi : ∀ a b, a ∈ l → R a b → Q a b) :
    List.Forall₂ Q l m := by
  induction h with
  | nil => exact .nil
  | cons h1 _ ih => exact .cons (hi _ _ (List.mem_cons_self ..) h1) (ih fun a b ha => hi a b (List.mem_cons_of_mem _ ha))

theorem last_nil {α : Type} {W : Nat} (hW : 1 ≤ W) {l : List α} : lastOf W l = [] ↔ l = [] := by
  unfold lastOf
  rw [List.drop_eq_nil_iff]
  constructor
  · intro h
    cases l with
    | nil => rfl
    | cons x l => simp only [List.length_cons] at h; omega
  · rintro rfl; simp

theorem follows {c : Kind} (hW : 1 ≤ c.W) (hb : '$' ∉ c.base) {fs : Fs} {S : List Dash.Seg} {J : List Bytes} (h : c.Shows fs S) (hj : c.Begins fs J) {α : Type}
    {play : Dash.Seg → α → Prop} {head : Option Bytes → Prop} {parts : List α} (hp : List.Forall₂ play S parts) (hh : head J.getLast?) :
    Follows fs c.folder c.audio c.id c.T play head (lastOf c.W parts) := by
  obtain ⟨h1, h2, h3⟩ := h
  have hn : S = [] ↔ parts = [] := by
    have := hp.length_eq
    constructor <;> rintro rfl
    · exact List.length_eq_zero_iff.1 this.symm
    · exact List.length_eq_zero_iff.1 this
  refine ⟨fun hq => h3 fun hs => hq ((last_nil hW).2 (hn.1 hs)), fun e he => ?_⟩
  obtain ⟨m, e1, e2⟩ := h2 e he
  refine ⟨m, e1, ?_⟩
  rcases e2 with ⟨a1, a2⟩ | ⟨i, a1, a2, a3, a4, a5, a6, a7⟩
  · exact .inl ⟨a1, (last_nil hW).2 (hn.1 a2)⟩
  · refine .inr ⟨i, a1, a2, fun hr => a6 (by rw [hr]; rfl), a7, ⟨_, by rw [a4]; exact Manifest.init_address _ _ _ _ _ hb, by rw [show c.folder ++ c.base = c.path from rfl, hj]; exact hh⟩, ?_⟩
    rw [a5, List.forall₂_map_left_iff, a3]
    refine forall₂_mem (forall₂_last hp c.W) ?_
    intro s g hs hpl
    exact ⟨_, s.bytes, Manifest.media_address _ _ _ _ _ hb, h1 s hs, hpl⟩

/-! ## The start of every segment is new -/

theorem video_heads {off : Int} {S : List Dash.Seg} {P : List (List Picture)} (h : List.Forall₂ (Record.Plays off) S P) :
    ∃ H : List Picture, S.map Dash.Seg.ts = H.map (fun p => Record.tick off p.pts) ∧ H.Sublist (P.flatten.filter Picture.key) := by
  induction h with
  | nil => exact ⟨[], rfl, .slnil⟩
  | @cons s ps S P h1 _ ih =>
    obtain ⟨H, i1, i2⟩ := ih
    obtain ⟨a, l, d, rfl, hk, _, _, _, ht, _⟩ := h1
    refine ⟨a :: H, by rw [List.map_cons, List.map_cons, ht, i1], ?_⟩
    rw [List.flatten_cons, List.cons_append, List.filter_cons, if_pos hk, List.filter_append]
    exact (i2.trans (List.sublist_append_right _ _)).cons_cons a

theorem audio_heads {rate : Nat} {off : Int} {S : List Dash.Seg} {G : List (List RecordAudio.Sound)} (h : List.Forall₂ (RecordAudio.Plays rate off) S G) :
    ∃ H : List RecordAudio.Sound, S.map Dash.Seg.ts = H.map (fun f => RecordAudio.tick rate off f.pts) ∧ H.Sublist G.flatten := by
  induction h with
  | nil => exact ⟨[], rfl, .slnil⟩
  | @cons s ps S P h1 _ ih =>
    obtain ⟨H, i1, i2⟩ := ih
    obtain ⟨a, l, d, rfl, _, _, _, ht, _⟩ := h1
    refine ⟨a :: H, by rw [List.map_cons, List.map_cons, ht, i1], ?_⟩
    rw [List.flatten_cons, List.cons_append]
    exact (i2.trans (List.sublist_append_right _ _)).cons_cons a

theorem tick_lt_video {off p q : Int} (h0 : off ≤ p) (h : p + 79 ≤ q) (h1 : q - off < 2 ^ 49) : Record.tick off p < Record.tick off q := by
  unfold Record.tick
  rw [Int.tdiv_eq_ediv_of_nonneg (by omega), Int.tdiv_eq_ediv_of_nonneg (by omega)]
  have k1 : (p - off) * 12800 / 1000000 + 1 ≤ (q - off) * 12800 / 1000000 := by omega
  have k2 : 0 ≤ (p - off) * 12800 / 1000000 := by omega
  have k3 : (q - off) * 12800 / 1000000 < 2 ^ 64 := by omega
  rw [Int.emod_eq_of_lt k2 (by omega), Int.emod_eq_of_lt (by omega) k3]
  omega

theorem tick_lt_audio {off p q : Int} {rate : Nat} (h0 : off ≤ p) (h : (1000000 : Int) ≤ (q - p) * rate) (h1 : (q - off) * rate < 1000000 * 2 ^ 32) :
    RecordAudio.tick rate off p < RecordAudio.tick rate off q := by
  have e : (q - off) * (rate : Int) = (p - off) * rate + (q - p) * rate := by rw [← Int.add_mul]; congr 1; omega
  have hn : 0 ≤ (p - off) * (rate : Int) := Int.mul_nonneg (by omega) (by omega)
  unfold RecordAudio.tick
  rw [e] at h1 ⊢
  generalize (p - off) * (rate : Int) = x at *
  generalize (q - p) * (rate : Int) = y at *
  rw [Int.tdiv_eq_ediv_of_nonneg (by omega), Int.tdiv_eq_ediv_of_nonneg (by omega)]
  omega

theorem nodup_of_increasing {α : Type} (g : α → Nat) {l : List α} (h : l.Pairwise (fun a b => g a < g b)) : (l.map g).Nodup := by
  rw [List.Nodup, List.pairwise_map]
  exact h.imp fun h e => by omega

theorem video_starts {off : Int} {S : List Dash.Seg} {P : List (List Picture)} {rest l : List Picture} (h : List.Forall₂ (Record.Plays off) S P)
    (hp : P.flatten ++ rest = l.dropLast.dropWhile (fun p => !p.key)) (hs : (l.filter Picture.key).Pairwise (fun p q => p.pts + 79 ≤ q.pts))
    (hr : ∀ p ∈ l, p.key = true → off ≤ p.pts ∧ p.pts - off < 2 ^ 49) : (S.map Dash.Seg.ts).Nodup := by
  obtain ⟨H, h1, h2⟩ := video_heads h
  have hsub : H.Sublist (l.filter Picture.key) := by
    refine h2.trans (List.Sublist.filter _ ?_)
    have : P.flatten.Sublist (l.dropLast.dropWhile (fun p => !p.key)) := by rw [← hp]; exact List.sublist_append_left _ _
    exact this.trans ((List.dropWhile_sublist _).trans (List.dropLast_sublist l))
  rw [h1]
  refine nodup_of_increasing _ ((hs.sublist hsub).imp_of_mem ?_)
  intro p q hp hq h
  have kp := List.mem_filter.1 (hsub.subset hp)
  have kq := List.mem_filter.1 (hsub.subset hq)
  exact tick_lt_video (hr p kp.1 kp.2).1 h (hr q kq.1 kq.2).2

theorem audio_starts {rate : Nat} {off : Int} {S : List Dash.Seg} {G : List (List RecordAudio.Sound)} {rest l : List RecordAudio.Sound}
    (h : List.Forall₂ (RecordAudio.Plays rate off) S G) (hg : G.flatten ++ rest = l) (hs : l.Pairwise (fun f g => (1000000 : Int) ≤ (g.pts - f.pts) * rate))
    (hr : ∀ f ∈ l, off ≤ f.pts ∧ (f.pts - off) * rate < 1000000 * 2 ^ 32) : (S.map Dash.Seg.ts).Nodup := by
  obtain ⟨H, h1, h2⟩ := audio_heads h
  have hsub : H.Sublist l := by rw [← hg]; exact h2.trans (List.sublist_append_left _ _)
  rw [h1]
  refine nodup_of_increasing _ ((hs.sublist hsub).imp_of_mem ?_)
  intro p q hp hq h
  exact tick_lt_audio (hr p (hsub.subset hp)).1 h (hr q (hsub.subset hq)).2

theorem all_fit (p : Pair) (ts : List Took) (M : Made) (hv : ((M.sv ++ ts.filterMap (·.v.seg)).map Dash.Seg.ts).Nodup)
    (ha : ((M.sa ++ ts.filterMap (·.a.seg)).map Dash.Seg.ts).Nodup) (hs : ∀ t ∈ ts, t.a.seg.isSome = true → p.a.T = t.timeBase) : p.AllFit M ts := by
  induction ts generalizing M with
  | nil => trivial
  | cons t ts ih =>
    have fm : ∀ (f : Took → Option Dash.Seg), (t :: ts).filterMap f = (f t).toList ++ ts.filterMap f := by
      intro f; rw [List.filterMap_cons]; cases f t <;> rfl
    rw [fm, ← List.append_assoc] at hv ha
    refine ⟨⟨?_, ?_, hs t (List.mem_cons_self ..)⟩, ih (M.add t) hv ha fun u hu => hs u (List.mem_cons_of_mem _ hu)⟩
    · rw [List.map_append] at hv
      refine (List.nodup_append.1 hv).1.sublist (List.Sublist.map _ (List.Sublist.append (List.drop_sublist _ _) (List.Sublist.refl _)))
    · rw [List.map_append] at ha
      refine (List.nodup_append.1 ha).1.sublist (List.Sublist.map _ (List.Sublist.append (List.drop_sublist _ _) (List.Sublist.refl _)))

/-! ## Runs -/

/-- A run of the filter is one of its segmenters. -/
theorem run_takes {cap : Nat} {off : Int} (rs : List Round) {s s' : State} {ess : List (List Eff)} (h : runOps (round cap off) s rs = .ok (s', ess)) :
    ∃ ts, runOps (take cap off) s.inputs rs = .ok (s'.inputs, ts) := by
  induction rs generalizing s ess with
  | nil =>
    simp only [runOps, Outcome.ok.injEq, Prod.mk.injEq] at h
    obtain ⟨rfl, rfl⟩ := h
    exact ⟨[], rfl⟩
  | cons r rs ih =>
    obtain ⟨s1, es, ess', h1, h2, rfl⟩ := runOps_cons_ok h
    obtain ⟨ts, ht⟩ := ih h2
    unfold round at h1
    cases hq : take cap off s.inputs r with
    | ub => rw [hq] at h1; cases h1
    | hang => rw [hq] at h1; cases h1
    | ok x =>
      rw [hq] at h1
      simp only [Outcome.bind_ok] at h1
      cases hp : publish s.folder s.base (number Prod.fst s.inputs.v) (number Audio.id s.inputs.a) r s.mpd x.2 with
      | ub => rw [hp] at h1; cases h1
      | hang => rw [hp] at h1; cases h1
      | ok y =>
        rw [hp] at h1
        simp only [Outcome.bind_ok, Outcome.ok.injEq, Prod.mk.injEq] at h1
        obtain ⟨rfl, rfl⟩ := h1
        refine ⟨x.2 :: ts, ?_⟩
        simp only [runOps, hq, Outcome.bind_ok]
        rw [ht]
        rfl

theorem run_length {σ ι ω : Type} {step : σ → ι → Outcome (σ × ω)} (l : List ι) {s s' : σ} {os : List ω} (h : runOps step s l = .ok (s', os)) :
    os.length = l.length := by
  induction l generalizing s os with
  | nil => simp only [runOps, Outcome.ok.injEq, Prod.mk.injEq] at h; rw [← h.2]; rfl
  | cons i l ih =>
    obtain ⟨s1, o, os', _, h2, rfl⟩ := runOps_cons_ok h
    simp [ih h2]

theorem run_take {σ ι ω : Type} {step : σ → ι → Outcome (σ × ω)} (l : List ι) {s s' : σ} {os : List ω} (h : runOps step s l = .ok (s', os)) (n : Nat) :
    ∃ s1, runOps step s (l.take n) = .ok (s1, os.take n) := by
  induction l generalizing s os n with
  | nil =>
    simp only [runOps, Outcome.ok.injEq, Prod.mk.injEq] at h
    obtain ⟨rfl, rfl⟩ := h
    exact ⟨s, by simp [runOps]⟩
  | cons i l ih =>
    obtain ⟨s1, o, os', h1, h2, rfl⟩ := runOps_cons_ok h
    cases n with
    | zero => exact ⟨s, rfl⟩
    | succ n =>
      obtain ⟨s2, h3⟩ := ih h2 n
      refine ⟨s2, ?_⟩
      simp only [List.take_succ_cons, runOps, h1, Outcome.bind_ok, h3]

/-- What a configured manager knows. -/
theorem configured (mb ms sd : Nat) : ∃ f, Rel (Manifest.configure Manifest.State.init mb ms sd) f ∧ f.bound = max 2 ms ∧ ∀ set, f.sets set = none := by
  have h := (Manifest.fits_init [] [] mb ms sd).rel
  exact ⟨_, h, rfl, fun _ => rfl⟩

theorem prefix_take {α β : Type} (f : α → Option β) (l : List α) (n : Nat) : ∃ k, (l.take n).filterMap f = (l.filterMap f).take k := by
  have : (l.take n).filterMap f <+: l.filterMap f := by
    obtain ⟨q, hq⟩ := List.take_prefix n l
    exact ⟨q.filterMap f, by rw [← List.filterMap_append, hq]⟩
  exact ⟨_, List.prefix_iff_eq_take.1 this⟩

theorem frames_sounds (l : List RecordAudio.In) : (RecordAudio.sounds l).filter RecordAudio.Sound.good = heard (frames l) := by
  unfold heard
  congr 1
  induction l with
  | nil => rfl
  | cons i l ih =>
    cases i with
    | cut => exact ih
    | frame f w =>
      cases w with
      | true => simp only [RecordAudio.sounds, frames, List.filter_cons, if_true, List.map_cons]; rw [ih]
      | false => simp only [RecordAudio.sounds, frames, List.filter_cons, Bool.false_eq_true, if_false]; exact ih

theorem frames_mem (l : List RecordAudio.In) (f : RecordAudio.Sound) (w : Bool) : .frame f w ∈ l ↔ (f, w) ∈ frames l := by
  induction l with
  | nil => simp [frames]
  | cons i l ih =>
    cases i with
    | cut => simp [frames, ih]
    | frame g v => simp [frames, ih]

/-- The initialisation files of an audio input. -/
theorem told_inits {l : List RecordAudio.In} {outs : List RecordAudio.Out} (h : List.Forall₂ RecordAudio.Told l outs) :
    (∀ b ∈ outs.filterMap RecordAudio.Out.init, ∃ f, (f, true) ∈ frames l ∧ RecordAudio.Announces f b) ∧
    (heard (frames l) ≠ [] → outs.filterMap RecordAudio.Out.init ≠ []) := by
  induction h with
  | nil => exact ⟨by simp, by simp [heard, frames]⟩
  | @cons i o l outs h1 _ ih =>
    obtain ⟨i1, i2⟩ := ih
    cases i with
    | cut =>
      have h1' : o.init = none := h1
      rw [List.filterMap_cons, h1']
      exact ⟨i1, i2⟩
    | frame f w =>
      have h1' : if Adts.ValidHeader f.data ∧ w = true then ∃ b, o.init = some b ∧ RecordAudio.Announces f b else o.init = none ∧ o.seg = none := h1
      rw [List.filterMap_cons]
      by_cases hc : Adts.ValidHeader f.data ∧ w = true
      · rw [if_pos hc] at h1'
        obtain ⟨b, hb, hab⟩ := h1'
        rw [hb]
        obtain ⟨_, rfl⟩ := hc
        refine ⟨?_, fun _ => List.cons_ne_nil _ _⟩
        intro x hx
        rcases List.mem_cons.1 hx with rfl | hx
        · exact ⟨f, by simp [frames], hab⟩
        · obtain ⟨g, hg, ha⟩ := i1 x hx
          exact ⟨g, by simp [frames, hg], ha⟩
      · rw [if_neg hc] at h1'
        rw [h1'.1]
        refine ⟨fun x hx => ?_, fun hh => i2 ?_⟩
        · obtain ⟨g, hg, ha⟩ := i1 x hx
          exact ⟨g, by simp [frames, hg], ha⟩
        · intro he
          apply hh
          unfold heard at he ⊢
          simp only [frames, List.filter_cons]
          cases w with
          | false => simpa using he
          | true =>
            simp only [if_true, List.map_cons, List.filter_cons]
            have : f.good = false := by
              unfold RecordAudio.Sound.good
              simp only [decide_eq_false_iff_not]
              intro hg
              exact hc ⟨hg.1, rfl⟩
            rw [this]
            simpa using he

/-- The video of a run. -/
theorem video_side {cap : Nat} (hcap : cap < 2 ^ 32) {off : Int} {x y : Inputs} {rs : List Round} {ts : List Took} {l : List Picture}
    (ht : runOps (take cap off) x rs = .ok (y, ts)) (hv : Filmed off x.v (rs.filterMap Round.unit) l) :
    ∃ (parts : List (List Picture)) (rest : List Picture), parts.flatten ++ rest = l.dropLast.dropWhile (fun p => !p.key) ∧
      List.Forall₂ (Record.Plays off) (ts.filterMap (·.v.seg)) parts ∧ ((ts.filterMap (·.v.seg)).map Dash.Seg.ts).Nodup ∧
      (∀ b ∈ ts.filterMap (·.v.init), ∃ c w h, Record.Describes c ((rs.filterMap Round.unit).map Prod.fst) w h b) ∧
      (Opening x.v l → ∀ n, (ts.take n).filterMap (·.v.seg) ≠ [] → (ts.take n).filterMap (·.v.init) ≠ []) := by
  obtain ⟨p1, p2⟩ := video_part rs ht
  rcases hv with ⟨hv, rfl⟩ | ⟨i, c, m, secs, hv, hm, hc, hl, hu, hs, hr⟩
  · obtain ⟨e1, e2⟩ := p2 hv
    refine ⟨[], [], rfl, ?_, ?_, ?_, ?_⟩
    · rw [e1]; exact .nil
    · rw [e1]; exact List.nodup_nil
    · rw [e2]; intro b hb; cases hb
    · intro _ n hn
      obtain ⟨k, hk⟩ := prefix_take (fun t : Took => t.v.seg) ts n
      rw [hk, e1] at hn
      simp at hn
  · obtain ⟨v', outs, _, a2, a3, a4⟩ := p1 i _ hv
    have a2' := a2
    rw [hu] at a2'
    obtain ⟨parts, rest, h1, h2, _⟩ := Record.recording_plays_back cap hcap c m hm secs off l hc hl v' outs a2'
    refine ⟨parts, rest, h1, by rw [a3]; exact h2, by rw [a3]; exact video_starts h2 h1 hs hr, ?_, ?_⟩
    rotate_left
    · intro hop n hn
      obtain ⟨x1, hx1⟩ := run_take rs ht n
      obtain ⟨w', outs', _, b2, b3, b4⟩ := (video_part _ hx1).1 i _ hv
      rw [b3] at hn
      rw [b4]
      obtain ⟨k, hk⟩ := prefix_take Round.unit rs n
      rw [hk, hu, ← List.map_take] at b2
      exact Record.init_comes_first cap hcap c m hm secs off l hc hl (hop i _ hv) k w' outs' b2 hn
    intro b hb
    rw [a4] at hb
    obtain ⟨w, h, hd⟩ := Record.init_files_describe cap hcap off c m secs _ (by
      intro n hn
      rw [hu] at hn
      obtain ⟨n', hn', rfl⟩ := List.mem_map.1 hn
      obtain ⟨p, hp, hpn⟩ := List.mem_flatMap.1 hn'
      have ok := (hl p hp).1
      rcases List.mem_append.1 hpn with hpn | hpn
      · obtain ⟨q1, q2, _⟩ := ok.pre n' hpn
        refine ⟨q1, fun he => ?_⟩
        rw [he] at q2
        simp at q2
      · obtain ⟨q1, q2, _⟩ := ok.slices n' hpn
        refine ⟨q1, fun he => ?_⟩
        simp only at he
        rw [he] at q2
        split at q2 <;> cases q2) v' outs a2 b hb
    exact ⟨c, w, h, hd⟩

/-- The audio of a run. -/
theorem audio_side {cap : Nat} (hcap : cap < 2 ^ 32) {off : Int} {rate : Nat} {x y : Inputs} {rs : List Round} {ts : List Took}
    {ss : List RecordAudio.Sound} (ht : runOps (take cap off) x rs = .ok (y, ts)) (ha : Recorded off rate x.a (rs.filterMap Round.sound) ss) :
    ∃ (groups : List (List RecordAudio.Sound)) (rest : List RecordAudio.Sound), groups.flatten ++ rest = ss ∧
      List.Forall₂ (RecordAudio.Plays rate off) (ts.filterMap (·.a.seg)) groups ∧ ((ts.filterMap (·.a.seg)).map Dash.Seg.ts).Nodup ∧
      (∀ b ∈ ts.filterMap (·.a.init), ∃ f, (f, true) ∈ rs.filterMap Round.sound ∧ RecordAudio.Announces f b) ∧
      (∀ n, (ts.take n).filterMap (·.a.seg) ≠ [] → (ts.take n).filterMap (·.a.init) ≠ []) ∧
      ∀ t ∈ ts, t.a.seg.isSome = true → t.timeBase = rate := by
  obtain ⟨p1, p2⟩ := audio_part rs ht
  rcases ha with ⟨ha, rfl⟩ | ⟨i, a, b, c, secs, t0, ha, hu, rfl, hs, hr⟩
  · obtain ⟨e1, e2⟩ := p2 ha
    refine ⟨[], [], rfl, ?_, ?_, ?_, ?_, ?_⟩
    · rw [e1]; exact .nil
    · rw [e1]; exact List.nodup_nil
    · rw [e2]; intro b hb; cases hb
    · intro n hn
      obtain ⟨k, hk⟩ := prefix_take (fun t : Took => t.a.seg) ts n
      rw [hk, e1] at hn
      simp at hn
    · intro t ht hs
      obtain ⟨g, hg⟩ := Option.isSome_iff_exists.1 hs
      have : g ∈ ts.filterMap (·.a.seg) := List.mem_filterMap.2 ⟨t, ht, hg⟩
      rw [e1] at this
      cases this
  · obtain ⟨A', l, outs, _, a2, a3, _, a5, a6⟩ := p1 _ ha
    have hU : RecordAudio.Uniform rate l := fun f w hf => hu f w (by rw [← a3]; exact (frames_mem l f w).1 hf)
    obtain ⟨gs, rest, h1, h2, _⟩ := RecordAudio.recording_plays_back cap hcap off x.v.isNone a b c secs rate l hU _ outs a2
    have hT := told_inits (RecordAudio.init_describes cap hcap off x.v.isNone a b c secs rate l hU _ outs a2)
    rw [frames_sounds, a3] at h2
    rw [a3] at hT
    refine ⟨gs, rest, h2, by rw [a5]; exact h1, by rw [a5]; exact audio_starts h1 h2 hs hr, by rw [a6]; exact hT.1, ?_, ?_⟩
    · intro n hn
      obtain ⟨x1, hx1⟩ := run_take rs ht n
      obtain ⟨B', k, outs', _, b2, b3, _, b5, b6⟩ := (audio_part _ hx1).1 _ ha
      have hU' : RecordAudio.Uniform rate k := fun f w hf => hu f w (by
        have := (frames_mem k f w).1 hf
        rw [b3] at this
        obtain ⟨r, hr1, hr2⟩ := List.mem_filterMap.1 this
        exact List.mem_filterMap.2 ⟨r, List.mem_of_mem_take hr1, hr2⟩)
      obtain ⟨gs', rest', g1, g2, _⟩ := RecordAudio.recording_plays_back cap hcap off x.v.isNone a b c secs rate k hU' _ outs' b2
      have hT' := told_inits (RecordAudio.init_describes cap hcap off x.v.isNone a b c secs rate k hU' _ outs' b2)
      rw [b6]
      refine hT'.2 ?_
      rw [← frames_sounds, ← g2]
      rw [b5] at hn
      intro he
      generalize outs'.filterMap RecordAudio.Out.seg = S at g1 hn
      cases g1 with
      | nil => exact hn rfl
      | cons q1 q2 =>
        obtain ⟨z, zl, d, rfl, _⟩ := q1
        simp at he
    · refine audio_scale (secs := secs) hcap rs ht hu ?_
      intro A hA
      rw [ha] at hA
      cases hA
      exact ⟨_, RecordAudio.new_rel a b c rate secs, .inr rfl⟩

/-- At the outset there is nothing. -/
theorem outset (p : Pair) (mb ms sd : Nat) (hW : p.v.W = max 2 ms) :
    p.Inv (Manifest.configure Manifest.State.init mb ms sd) Made.none ∧ p.Shows Fs.empty Made.none := by
  obtain ⟨f, f1, f2, f3⟩ := configured mb ms sd
  refine ⟨⟨f, f1, f2.trans hW.symm, .inl ⟨f3 _, rfl⟩, .inl ⟨f3 _, rfl⟩⟩, ?_⟩
  refine ⟨⟨?_, ?_, fun h => absurd rfl h⟩, ⟨?_, ?_, fun h => absurd rfl h⟩, rfl, rfl⟩
  · intro s hs; have : s ∈ ([] : List Dash.Seg) := lastOf_sub _ _ s hs; cases this
  · intro e he; cases he
  · intro s hs; have : s ∈ ([] : List Dash.Seg) := lastOf_sub _ _ s hs; cases this
  · intro e he; cases he

/-- **C87.**  Start the filter with at most one new video and one new audio input, feed it any pictures and frames, in any interleaving,
such that its buffers do not overflow.  Stop at any moment, even between two things done to the folder.  A player that then reads
the manifest, makes the addresses it tells it to make and reads the files behind them finds a window of the recording: the last
segments of a beginning of the parts into which all pictures from the first key picture on (but those still collected) are cut, each part in
a file that plays exactly its pictures; the same of the frames that can be heard; and at the addresses of the initialisations
descriptions of the streams (missing only before the first segment, if the stream of the video brings its parameter sets with the first key picture).  After a whole round it finds the newest parts. -/
theorem recording_can_be_followed (cap : Nat) (hcap : cap < 2 ^ 32) (off : Int) (folder base : Str) (hb : '$' ∉ base) (mb ms sd : Nat) (x : Inputs)
    (rs : List Round) (l : List Picture) (rate : Nat) (ss : List RecordAudio.Sound) (hv : Filmed off x.v (rs.filterMap Round.unit) l)
    (ha : Recorded off rate x.a (rs.filterMap Round.sound) ss) (s' : State) (ess : List (List Eff))
    (he : runOps (round cap off) (start folder base mb ms sd x) rs = .ok (s', ess)) :
    ∃ (parts : List (List Picture)) (rest : List Picture) (groups : List (List RecordAudio.Sound)) (left : List RecordAudio.Sound),
      parts.flatten ++ rest = l.dropLast.dropWhile (fun p => !p.key) ∧ groups.flatten ++ left = ss ∧
      ∀ pre, pre <+: ess.flatten → ∃ n k, (pre = ess.flatten → n = parts.length ∧ k = groups.length) ∧
        Follows (Fs.empty.run pre) folder false (number Prod.fst x.v) 12800 (Record.Plays off) (VideoHead x.v l (rs.filterMap Round.unit) (parts.take n))
          (lastOf (max 2 ms) (parts.take n)) ∧
        Follows (Fs.empty.run pre) folder true (number Audio.id x.a) rate (RecordAudio.Plays rate off)
          (AudioHead (rs.filterMap Round.sound) (groups.take k)) (lastOf (max 2 ms) (groups.take k)) := by
  obtain ⟨ts, ht⟩ := run_takes rs he
  obtain ⟨parts, rest, v1, v2, v3, v4, v5⟩ := video_side hcap ht hv
  obtain ⟨groups, left, a1, a2, a3, a4, a5, a6⟩ := audio_side hcap ht ha
  refine ⟨parts, rest, groups, left, v1, a1, ?_⟩
  let kv : Kind := ⟨folder, base, max 2 ms, false, number Prod.fst x.v, Record.BASE⟩
  let ka : Kind := ⟨folder, base, max 2 ms, true, number Audio.id x.a, rate⟩
  let p : Pair := ⟨kv, ka, rfl, rfl, rfl, rfl, rfl, rfl⟩
  obtain ⟨hinv, hshow⟩ := outset p mb ms sd rfl
  obtain ⟨s1, ess1, r1, _, r3, r4⟩ := run_shows p rs (start folder base mb ms sd x) Made.none Fs.empty s'.inputs ts rfl rfl rfl rfl hinv hshow ht
    (all_fit p ts Made.none v3 a3 fun t h1 h2 => by rw [a6 t h1 h2])
  rw [he] at r1
  cases r1
  have hW : 1 ≤ max 2 ms := by omega
  have hall : ∀ q : List Took, (Made.none.all q) = ⟨q.filterMap (·.v.seg), q.filterMap (·.a.seg), q.filterMap (·.v.init), q.filterMap (·.a.init)⟩ := by
    intro q; rw [all_eq]; rfl
  have hvh : ∀ (n d k : Nat), n ≤ d → List.Forall₂ (Record.Plays off) ((ts.take n).filterMap (·.v.seg)) (parts.take k) →
      VideoHead x.v l (rs.filterMap Round.unit) (parts.take k) ((ts.take d).filterMap (·.v.init)).getLast? := by
    intro n d k hnd hf
    constructor
    · intro hop hg hn
      rw [List.getLast?_eq_none_iff] at hn
      refine v5 hop n ?_ ?_
      · intro hs
        rw [hs] at hf
        generalize parts.take k = z at hf hg
        cases hf
        exact hg rfl
      · have : (ts.take n).filterMap (·.v.init) <+: (ts.take d).filterMap (·.v.init) := by
          obtain ⟨q, hq⟩ := (List.prefix_take_iff.2 ⟨List.take_prefix n ts, by rw [List.length_take]; omega⟩ : ts.take n <+: ts.take d)
          exact ⟨q.filterMap (·.v.init), by rw [← List.filterMap_append, hq]⟩
        rw [hn] at this
        exact List.prefix_nil.1 this
    · intro b hb
      obtain ⟨j, hj⟩ := prefix_take (fun t : Took => t.v.init) ts d
      rw [hj] at hb
      exact v4 b (List.mem_of_mem_take (List.mem_of_getLast? hb))
  have hah : ∀ (n d k : Nat), n ≤ d → List.Forall₂ (RecordAudio.Plays rate off) ((ts.take n).filterMap (·.a.seg)) (groups.take k) →
      AudioHead (rs.filterMap Round.sound) (groups.take k) ((ts.take d).filterMap (·.a.init)).getLast? := by
    intro n d k hnd hf
    constructor
    · intro hg hn
      rw [List.getLast?_eq_none_iff] at hn
      refine a5 n ?_ ?_
      · intro hs
        rw [hs] at hf
        generalize groups.take k = z at hf hg
        cases hf
        exact hg rfl
      · have : (ts.take n).filterMap (·.a.init) <+: (ts.take d).filterMap (·.a.init) := by
          obtain ⟨q, hq⟩ := (List.prefix_take_iff.2 ⟨List.take_prefix n ts, by rw [List.length_take]; omega⟩ : ts.take n <+: ts.take d)
          exact ⟨q.filterMap (·.a.init), by rw [← List.filterMap_append, hq]⟩
        rw [hn] at this
        exact List.prefix_nil.1 this
    · intro b hb
      obtain ⟨j, hj⟩ := prefix_take (fun t : Took => t.a.init) ts d
      rw [hj] at hb
      exact a4 b (List.mem_of_mem_take (List.mem_of_getLast? hb))
  intro pre hpre
  by_cases hend : pre = ess.flatten
  · subst hend
    refine ⟨parts.length, groups.length, fun _ => ⟨rfl, rfl⟩, ?_, ?_⟩
    · rw [List.take_length]
      obtain ⟨q1, _, q3, _⟩ := r3
      rw [hall] at q1 q3
      have hh := hvh ts.length ts.length parts.length (Nat.le_refl _) (by rw [List.take_length, List.take_length]; exact v2)
      rw [List.take_length] at hh
      rw [List.take_length] at hh
      exact follows (c := kv) hW hb q1 q3 v2 hh
    · obtain ⟨_, q2, _, q4⟩ := r3
      rw [hall] at q2 q4
      have hh := hah ts.length ts.length groups.length (Nat.le_refl _) (by rw [List.take_length, List.take_length]; exact a2)
      rw [List.take_length] at hh
      rw [List.take_length] at hh ⊢
      exact follows (c := ka) hW hb q2 q4 a2 hh
  · obtain ⟨⟨a, c, hac, h1, h3⟩, b, d, hbd, h2, h4⟩ := r4 pre hpre
    rw [hall] at h1 h2 h3 h4
    obtain ⟨n, hn⟩ := prefix_take (fun t : Took => t.v.seg) ts a
    obtain ⟨k, hk⟩ := prefix_take (fun t : Took => t.a.seg) ts b
    have f2 := forall₂_take a2 k
    rw [← hk] at f2
    have f1 := forall₂_take v2 n
    rw [← hn] at f1
    exact ⟨n, k, fun h => absurd h hend, follows (c := kv) hW hb h1 h3 f1 (hvh a c n hac f1), follows (c := ka) hW hb h2 h4 f2 (hah b d k hbd f2)⟩

/-- **C87.**  Nothing but the buffers of the segmenters can stop it: if they take everything, so does the filter. -/
theorem recording_goes_through (cap : Nat) (hcap : cap < 2 ^ 32) (off : Int) (folder base : Str) (mb ms sd : Nat) (x : Inputs)
    (rs : List Round) (l : List Picture) (rate : Nat) (ss : List RecordAudio.Sound) (hv : Filmed off x.v (rs.filterMap Round.unit) l)
    (ha : Recorded off rate x.a (rs.filterMap Round.sound) ss) (y : Inputs) (ts : List Took) (ht : runOps (take cap off) x rs = .ok (y, ts)) :
    ∃ s' ess, runOps (round cap off) (start folder base mb ms sd x) rs = .ok (s', ess) ∧ s'.inputs = y := by
  obtain ⟨_, _, _, _, v3, _⟩ := video_side hcap ht hv
  obtain ⟨_, _, _, _, a3, _, _, a6⟩ := audio_side hcap ht ha
  let kv : Kind := ⟨folder, base, max 2 ms, false, number Prod.fst x.v, Record.BASE⟩
  let ka : Kind := ⟨folder, base, max 2 ms, true, number Audio.id x.a, rate⟩
  let p : Pair := ⟨kv, ka, rfl, rfl, rfl, rfl, rfl, rfl⟩
  obtain ⟨hinv, hshow⟩ := outset p mb ms sd rfl
  obtain ⟨s1, ess1, r1, r2, _⟩ := run_shows p rs (start folder base mb ms sd x) Made.none Fs.empty y ts rfl rfl rfl rfl hinv hshow ht
    (all_fit p ts Made.none v3 a3 fun t h1 h2 => by rw [a6 t h1 h2])
  exact ⟨s1, ess1, r1, r2⟩

end Lms.Live
