import Mathlib.Tactic.Positivity
import Verif.Reports.Encoder

/-!
# C81: the mixers and the splitter, whose reports list channels
-/

namespace Lms.Reports

open Lms Lms.Json Lms.Control Lms.FilterEvents
open Lms.Encoder (u32 s32 isInt s32_u32)

/-- What printing and reading of a `float` are relied on for (six digits, the default of a stream, survive reading: FLT_DIG): a text
that was printed is printed again after reading, and reading what was printed keeps the sign and does not go beyond one. -/
structure Floats.Ok (fl : Floats) : Prop where
  again : ∀ q, fl.show_ (fl.read (fl.show_ q)) = fl.show_ q
  nonneg : ∀ q, 0 ≤ q → 0 ≤ fl.read (fl.show_ q)
  pos : ∀ q, 0 < q → 0 < fl.read (fl.show_ q)
  le_one : ∀ q, q ≤ 1 → fl.read (fl.show_ q) ≤ 1

/-- Numbers printed in tenths, rounded upwards. -/
def tenths : Floats :=
  { show_ := fun q => showInt (max (-2147483648) (min 2147483647 ⌈10 * q⌉)), read := fun t => (readInt t : ℚ) / 10 }

theorem tenths_fits (q : ℚ) : Fits (max (-2147483648) (min 2147483647 ⌈10 * q⌉)) := by
  constructor <;> omega

theorem tenths_read (q : ℚ) : tenths.read (tenths.show_ q) = ((max (-2147483648) (min 2147483647 ⌈10 * q⌉) : Int) : ℚ) / 10 := by
  unfold tenths
  simp only []
  rw [readInt_showInt _ (tenths_fits q)]

/-- Such a way of printing exists. -/
theorem tenths_ok : tenths.Ok := by
  refine ⟨fun q => ?_, fun q h => ?_, fun q h => ?_, fun q h => ?_⟩
  · rw [tenths_read]
    have hf := tenths_fits q
    have key : ∀ z : Int, Fits z → max (-2147483648) (min 2147483647 ⌈10 * ((z : ℚ) / 10)⌉) = z := by
      intro z hz
      have : (10 : ℚ) * ((z : ℚ) / 10) = (z : ℚ) := by field_simp
      rw [this, Int.ceil_intCast]
      obtain ⟨h1, h2⟩ := hz
      omega
    exact congrArg showInt (key _ hf)
  · rw [tenths_read]
    have : (0 : Int) ≤ ⌈10 * q⌉ := Int.ceil_nonneg (by positivity)
    have h2 : (0 : Int) ≤ max (-2147483648) (min 2147483647 ⌈10 * q⌉) := by omega
    have h3 : (0 : ℚ) ≤ ((max (-2147483648) (min 2147483647 ⌈10 * q⌉) : Int) : ℚ) := by exact_mod_cast h2
    positivity
  · rw [tenths_read]
    have : (0 : Int) < ⌈10 * q⌉ := Int.ceil_pos.2 (by positivity)
    have h2 : (0 : Int) < max (-2147483648) (min 2147483647 ⌈10 * q⌉) := by omega
    have h3 : (0 : ℚ) < ((max (-2147483648) (min 2147483647 ⌈10 * q⌉) : Int) : ℚ) := by exact_mod_cast h2
    positivity
  · rw [tenths_read]
    have : ⌈10 * q⌉ ≤ 10 := Int.ceil_le.2 (by push_cast; linarith)
    have h2 : max (-2147483648) (min 2147483647 ⌈10 * q⌉) ≤ (10 : Int) := by omega
    have h3 : ((max (-2147483648) (min 2147483647 ⌈10 * q⌉) : Int) : ℚ) ≤ 10 := by exact_mod_cast h2
    linarith

/-! ## Sending the items of a list -/

/-- An event with a node of a report as its parameters. -/
def send (action : String) (n : Node) : Node := object [("action", ofString action.toList), ("params", n)]

theorem items_sent {σ V : Type} (ev : σ → Node → R (σ × Bool)) (get : σ → Int → Option V) (item : Int → Option (List (String × Node)))
    (val : Int → V) (a : String) (P : σ → Prop) (ids : List Int)
    (step : ∀ t id ps, id ∈ ids → item id = some ps → P t → (get t id).isSome = true →
      ∃ t', ev t (send a (object ps)) = .ok (t', true) ∧ P t' ∧ get t' = fun k => if k = id then some (val id) else get t k) :
    ∀ (l : List Int), (∀ k ∈ l, k ∈ ids) → ∀ t, P t → (∀ id ∈ l, (item id).isSome = true → (get t id).isSome = true) →
      ∃ t', events ev t (((l.filterMap item).map object).map (send a)) = .ok (t', true) ∧ P t' ∧
        ∀ k, get t' k = if k ∈ l ∧ (item k).isSome = true then some (val k) else get t k := by
  intro l
  induction l with
  | nil => intro _ t hp _; exact ⟨t, rfl, hp, fun k => by simp⟩
  | cons id l ih =>
    intro hsub t hp hs
    cases hi : item id with
    | none =>
      rw [List.filterMap_cons_none hi]
      obtain ⟨t', h1, h2, h3⟩ := ih (fun k hk => hsub k (List.mem_cons_of_mem _ hk)) t hp (fun k hk => hs k (List.mem_cons_of_mem _ hk))
      refine ⟨t', h1, h2, fun k => ?_⟩
      rw [h3 k]
      by_cases hk : k = id
      · subst hk; simp [hi]
      · simp [hk]
    | some ps =>
      rw [List.filterMap_cons_some hi]
      obtain ⟨t1, e1, p1, g1⟩ := step t id ps (hsub id (by simp)) hi hp (hs id (by simp) (by simp [hi]))
      obtain ⟨t', h1, h2, h3⟩ := ih (fun k hk => hsub k (List.mem_cons_of_mem _ hk)) t1 p1 (fun k hk hik => by
        rw [g1]
        simp only []
        split
        · rfl
        · exact hs k (List.mem_cons_of_mem _ hk) hik)
      refine ⟨t', ?_, h2, fun k => ?_⟩
      · simp only [List.map_cons, events, e1, R.bind]
        rw [h1]
        rfl
      · rw [h3 k, g1]
        by_cases hk : k = id
        · subst hk
          simp [hi]
        · simp [hk]

/-! ## Audio mixer -/

theorem unit_kept (q : ℚ) (h : 0 ≤ q ∧ q ≤ 1) : (if q > 1 then 1 else if q < 0 then 0 else q) = q := by
  rw [if_neg (not_lt.2 h.2), if_neg (not_lt.2 h.1)]

local macro "given" : tactic =>
  `(tactic| simp [must, may, mustBe, mayBe, List.lookup, entry, int_value, text_value, bool_value, flt_value,
    int_proper, text_proper, bool_proper, flt_proper, *])

theorem gain_taken (id : Int) (hi : Fits id) (t : Str) :
    taken .audioMixer (send "changeChannelGain" (object [("id", intNode id), ("gain", fltNode t)])) =
      .ok (.called "changeChannelGain".toList [some (.int id), some (.flt t)]) :=
  sent .audioMixer "changeChannelGain" 0 _ rfl (by decide) _ _ (by given) (by given) rfl

theorem gain_event (fl : Floats) (s : AudioMixer.Ctl ℚ) (id : Int) (hi : Fits id) (t : Str) :
    mixEvent fl s (send "changeChannelGain" (object [("id", intNode id), ("gain", fltNode t)])) =
      .ok ((AudioMixer.setGain s id (fl.read t)).2, (AudioMixer.setGain s id (fl.read t)).1) := by
  unfold mixEvent
  rw [gain_taken id hi t]
  simp only [R.bind, mixCommand]
  rfl

theorem master_event (fl : Floats) (s : AudioMixer.Ctl ℚ) (t : Str) :
    mixEvent fl s (send "changeMasterGain" (object [("gain", fltNode t)])) = .ok ({ s with master := fl.read t }, true) := by
  have ht : taken .audioMixer (send "changeMasterGain" (object [("gain", fltNode t)])) =
      .ok (.called "changeMasterGain".toList [some (.flt t)]) :=
    sent .audioMixer "changeMasterGain" 3 _ rfl (by decide) _ _ (by given) (by given) rfl
  unfold mixEvent
  rw [ht]
  simp only [R.bind, mixCommand]
  rfl

/-- **C81**: after an accepted volume command the mixer reports the gain asked for, brought between zero and one, and everything else as
before. -/
theorem gain_told (fl : Floats) (b : MixBase) (s s' : AudioMixer.Ctl ℚ) (id : Int) (hi : Fits id) (t : Str)
    (h : mixEvent fl s (send "changeChannelGain" (object [("id", intNode id), ("gain", fltNode t)])) = .ok (s', true)) :
    gainItem fl s' id = some [("id", intNode id), ("gain", fltNode (fl.show_ (max 0 (min 1 (fl.read t)))))] ∧
    (∀ k, k ≠ id → gainItem fl s' k = gainItem fl s k) ∧
    (∀ n, n ≠ "gains" → (mixReport fl b s').lookup n = (mixReport fl b s).lookup n) := by
  rw [gain_event fl s id hi] at h
  simp only [R.ok.injEq, Prod.mk.injEq] at h
  obtain ⟨h1, h2⟩ := h
  unfold AudioMixer.setGain at h1 h2
  cases hg : s.gains id with
  | none => rw [hg] at h2; simp at h2
  | some g =>
    rw [hg] at h1
    simp only [] at h1
    subst h1
    refine ⟨?_, ?_, ?_⟩
    · unfold gainItem
      simp only [if_true, Option.map_some]
      congr 6
      by_cases h1 : fl.read t > 1
      · rw [if_pos h1, min_eq_left (le_of_lt h1), max_eq_right zero_le_one]
      · rw [if_neg h1, min_eq_right (not_lt.1 h1)]
        by_cases h0 : fl.read t < 0
        · rw [if_pos h0, max_eq_left (le_of_lt h0)]
        · rw [if_neg h0, max_eq_right (not_lt.1 h0)]
    · intro k hk
      unfold gainItem
      simp only [if_neg hk]
    · intro n hn
      unfold mixReport
      have : (n == "gains") = false := by simpa using hn
      simp only [List.lookup_cons, this]

/-- **C81**: the gains in the report of one mixer, sent item by item to another one with the same channels, and the master gain, make the
other one report the same. -/
theorem gains_restored (fl : Floats) (ho : fl.Ok) (b : MixBase) (s t : AudioMixer.Ctl ℚ) (hu : AudioMixer.InUnit s)
    (hi : ∀ id ∈ b.ids, Fits id) (hst : ∀ id ∈ b.ids, (s.gains id).isSome = (t.gains id).isSome) (items : List Node) (m : Node)
    (h1 : (mixReport fl b s).lookup "gains" = some (.arr items)) (h2 : (mixReport fl b s).lookup "masterGain" = some m) :
    ∃ t', events (mixEvent fl) t (send "changeMasterGain" (object [("gain", m)]) :: items.map (send "changeChannelGain")) = .ok (t', true) ∧
      mixReport fl b t' = mixReport fl b s := by
  have e1 : items = (b.ids.filterMap (gainItem fl s)).map object := by
    simp [mixReport, List.lookup] at h1; exact h1.symm
  have e2 : m = fltNode (fl.show_ s.master) := by
    simp [mixReport, List.lookup] at h2; exact h2.symm
  subst e1 e2
  obtain ⟨t', g1, g2, g3⟩ := items_sent (mixEvent fl) (fun c => c.gains) (gainItem fl s)
    (fun id => fl.read (fl.show_ ((s.gains id).getD 0))) "changeChannelGain" (fun c => c.master = fl.read (fl.show_ s.master)) b.ids
    (by
      intro c id ps hid hps hc hsome
      unfold gainItem at hps
      rw [Option.map_eq_some_iff] at hps
      obtain ⟨g, hg, rfl⟩ := hps
      have hgu := hu id g hg
      obtain ⟨old, hold⟩ := Option.isSome_iff_exists.1 hsome
      have hold : c.gains id = some old := hold
      refine ⟨{ c with gains := fun k => if k = id then some (fl.read (fl.show_ g)) else c.gains k }, ?_, hc, ?_⟩
      · rw [gain_event fl c id (hi id hid)]
        unfold AudioMixer.setGain
        rw [hold]
        simp only [unit_kept _ ⟨ho.nonneg g hgu.1, ho.le_one g hgu.2⟩]
      · simp only [hg, Option.getD_some])
    b.ids (fun _ h => h) { t with master := fl.read (fl.show_ s.master) } rfl (by
      intro id hid hsome
      show (t.gains id).isSome = true
      rw [← hst id hid]
      simpa [gainItem] using hsome)
  refine ⟨t', ?_, ?_⟩
  · rw [events, master_event fl t]
    simp only [R.bind]
    rw [g1]
    rfl
  · have hm : fl.show_ t'.master = fl.show_ s.master := by rw [g2, ho.again]
    have hl : b.ids.filterMap (gainItem fl t') = b.ids.filterMap (gainItem fl s) := by
      refine List.filterMap_congr fun id hid => ?_
      have := g3 id
      simp only [] at this
      unfold gainItem
      rw [this]
      cases hg : s.gains id with
      | none =>
        have ht : t.gains id = none := by
          have := hst id hid
          rw [hg] at this
          simpa using this.symm
        simp [gainItem, hg, ht]
      | some g => simp [gainItem, hg, hid, ho.again]
    unfold mixReport
    rw [hl, hm]

/-- A mixer with two channels. -/
def demoMix : AudioMixer.Ctl ℚ := ⟨fun k => if k = 1 then some (1 / 2) else if k = 2 then some 1 else none, 3 / 5⟩

example : AudioMixer.InUnit demoMix := by
  intro id g h
  simp only [demoMix] at h
  split at h
  · cases h; norm_num
  · split at h
    · cases h; norm_num
    · cases h

example : gainItem tenths demoMix 1 = some [("id", intNode 1), ("gain", fltNode "5".toList)] := by
  have : ⌈(10 : ℚ) * (1 / 2)⌉ = 5 := by norm_num
  have h5 : showInt (max (-2147483648) (min 2147483647 5)) = "5".toList := by decide +kernel
  simp only [gainItem, demoMix, if_true, Option.map_some, tenths, this, h5]

/-- The gain itself comes back only as far as it was printed: a third becomes four tenths when tenths are printed. -/
theorem gain_rounded : tenths.read (tenths.show_ (1 / 3)) = 2 / 5 := by
  rw [tenths_read]
  have : ⌈(10 : ℚ) * (1 / 3)⌉ = 4 := by norm_num
  rw [this]
  norm_num

/-! ## Video mixer -/

/-- What holds of a channel at any time. -/
structure ChOk (maxCh : Nat) (c : VideoMixer.Ch) : Prop where
  width : 0 < c.width
  height : 0 < c.height
  x : 0 ≤ c.x
  y : 0 ≤ c.y
  opacity : 0 ≤ c.opacity ∧ c.opacity ≤ 1
  layer : 0 ≤ c.layer ∧ c.layer ≤ maxCh

/-- What holds of a mixer at any time: its output has a size it would be given, and its channels are in range. -/
structure VMixOk (s : VideoMixer.St) : Prop where
  width : 0 < s.outW ∧ s.outW ≤ 1920
  height : 0 < s.outH ∧ s.outH ≤ 1080
  maxCh : s.maxCh ≤ 2147483647
  chans : ∀ id c, s.chans id = some c → ChOk s.maxCh c

theorem configChannel_accepted (s s' : VideoMixer.St) (id : Int) (w h x y : ℚ) (l : Int) (en : Bool) (o : ℚ)
    (e : VideoMixer.configChannel s id w h x y l en o = (true, s')) : ChOk s.maxCh ⟨w, h, x, y, l, en, o⟩ ∧ (s.chans id).isSome = true ∧
    s' = { s with chans := fun k => if k = id then some ⟨w, h, x, y, l, en, o⟩ else s.chans k } := by
  unfold VideoMixer.configChannel at e
  split at e
  · simp at e
  · rename_i c hc
    split at e
    · simp at e
    · rename_i h1
      split at e
      · simp at e
      · rename_i h2
        simp only [Prod.mk.injEq, true_and] at e
        simp only [not_or, not_lt, not_le] at h1 h2
        exact ⟨⟨h1.2.2.1, h1.2.2.2.1, h1.1, h1.2.1, ⟨h1.2.2.2.2.1, h1.2.2.2.2.2⟩, h2⟩, by rw [hc]; rfl, e.symm⟩

theorem configChannel_of (s : VideoMixer.St) (id : Int) (c : VideoMixer.Ch) (h : ChOk s.maxCh c) (hs : (s.chans id).isSome = true) :
    VideoMixer.configChannel s id c.width c.height c.x c.y c.layer c.enabled c.opacity =
      (true, { s with chans := fun k => if k = id then some c else s.chans k }) := by
  obtain ⟨old, hold⟩ := Option.isSome_iff_exists.1 hs
  unfold VideoMixer.configChannel
  rw [hold]
  simp only []
  rw [if_neg, if_neg]
  · rintro (h1 | h1)
    · exact absurd h.layer.1 (by omega)
    · exact absurd h.layer.2 (by omega)
  · rintro (h1 | h1 | h1 | h1 | h1 | h1)
    · exact absurd h1 (not_lt.2 h.x)
    · exact absurd h1 (not_lt.2 h.y)
    · exact absurd h1 (not_le.2 h.width)
    · exact absurd h1 (not_le.2 h.height)
    · exact absurd h1 (not_lt.2 h.opacity.1)
    · exact absurd h1 (not_lt.2 h.opacity.2)

theorem configure_cases (s : VideoMixer.St) (w h f : Int) :
    (VideoMixer.configure s w h f = (false, s) ∧ (w ≤ 0 ∨ w > 1920 ∨ h ≤ 0 ∨ h > 1080)) ∨
    (VideoMixer.configure s w h f = (true, { s with frameTime := if f > 0 then 1000000 / f else s.frameTime, outH := h, outW := w }) ∧
      0 < w ∧ w ≤ 1920 ∧ 0 < h ∧ h ≤ 1080) := by
  unfold VideoMixer.configure
  by_cases hc : w ≤ 0 ∨ w > VideoMixer.MAXW ∨ h ≤ 0 ∨ h > VideoMixer.MAXH
  · rw [if_pos hc]
    exact Or.inl ⟨rfl, hc⟩
  · rw [if_neg hc]
    simp only [VideoMixer.MAXW, VideoMixer.MAXH] at hc
    exact Or.inr ⟨rfl, by omega, by omega, by omega, by omega⟩

/-- A new mixer (VideoMixer.cpp:52-75), with its channels coming and going, and whatever events it is sent, has channels whose report can be
sent back. -/
theorem vmix_ok_event (fl : Floats) (s s' : VideoMixer.St) (e : Node) (ok : Bool) (hs : VMixOk s) (h : vmixEvent fl s e = .ok (s', ok)) :
    VMixOk s' := by
  unfold vmixEvent at h
  cases ht : taken .videoMixer e with
  | dies => rw [ht] at h; simp [R.bind] at h
  | ub => rw [ht] at h; simp [R.bind] at h
  | ok t =>
    rw [ht] at h
    simp only [R.bind] at h
    cases t with
    | unknown => simp only [R.ok.injEq, Prod.mk.injEq] at h; rw [← h.1]; exact hs
    | refused => simp only [R.ok.injEq, Prod.mk.injEq] at h; rw [← h.1]; exact hs
    | called a args =>
      simp only [] at h
      split at h
      · split at h
        · simp only [R.ok.injEq, Prod.mk.injEq] at h
          obtain ⟨h1, h2⟩ := h
          cases ok with
          | false =>
            have : s' = s := by
              rw [← h1]
              unfold VideoMixer.configChannel at h2 ⊢
              split
              · rfl
              · rename_i c hc
                rw [hc] at h2
                simp only [] at h2
                split
                · rfl
                · rename_i g1
                  rw [if_neg g1] at h2
                  split
                  · rfl
                  · rename_i g2; rw [if_neg g2] at h2; simp at h2
            rw [this]; exact hs
          | true =>
            obtain ⟨k1, _, k3⟩ := configChannel_accepted s s' _ _ _ _ _ _ _ _ (Prod.ext h2 h1)
            rw [k3]
            refine ⟨hs.width, hs.height, hs.maxCh, fun id c hc => ?_⟩
            simp only [] at hc
            split at hc
            · cases hc; exact k1
            · exact hs.chans id c hc
        · simp only [R.ok.injEq, Prod.mk.injEq] at h; rw [← h.1]; exact hs
      · split at h
        · simp only [R.ok.injEq, Prod.mk.injEq] at h
          rename_i w hh f
          rcases configure_cases s ((intArg w).getD s.outW) ((intArg hh).getD s.outH) ((intArg f).getD 0) with ⟨k, _⟩ | ⟨k, k1, k2, k3, k4⟩
          · rw [k] at h; rw [← h.1]; exact hs
          · rw [k] at h; rw [← h.1]; exact ⟨⟨k1, k2⟩, ⟨k3, k4⟩, hs.maxCh, hs.chans⟩
        · simp only [R.ok.injEq, Prod.mk.injEq] at h; rw [← h.1]; exact hs

theorem vmix_ok_add (s : VideoMixer.St) (id : Int) (hs : VMixOk s) : VMixOk (VideoMixer.addChannel s id).2 := by
  unfold VideoMixer.addChannel
  split
  · refine ⟨hs.width, hs.height, hs.maxCh, fun k c hc => ?_⟩
    simp only [] at hc
    split at hc
    · cases hc
      refine ⟨?_, ?_, ?_, ?_, ⟨?_, ?_⟩, ⟨?_, ?_⟩⟩ <;> simp [VideoMixer.Ch.default]
    · exact hs.chans k c hc
  · exact hs

theorem vmix_ok_remove (s : VideoMixer.St) (id : Int) (hs : VMixOk s) : VMixOk (VideoMixer.removeChannel s id).2 := by
  unfold VideoMixer.removeChannel
  split
  · exact hs
  · refine ⟨hs.width, hs.height, hs.maxCh, fun k c hc => ?_⟩
    simp only [] at hc
    split at hc
    · cases hc
    · exact hs.chans k c hc

/-- A new video mixer of a size it may be created with (VideoMixer.cpp:51-80), with any number of channels that can be asked for. -/
theorem vmix_ok_new (s : VideoMixer.St) (w h : Int) (f t : Int) (n : Nat) (hn : n ≤ 2147483647)
    (hc : VideoMixer.configure ⟨fun _ => none, 0, 0, n, t, 0⟩ w h f = (true, s)) : VMixOk s := by
  rcases configure_cases ⟨fun _ => none, 0, 0, n, t, 0⟩ w h f with ⟨k, _⟩ | ⟨k, k1, k2, k3, k4⟩
  · rw [k] at hc; simp at hc
  · rw [k] at hc
    simp only [Prod.mk.injEq, true_and] at hc
    subst hc
    exact ⟨⟨k1, k2⟩, ⟨k3, k4⟩, hn, fun id c h => by cases h⟩

/-- The channel as it comes back from the report. -/
def back (fl : Floats) (c : VideoMixer.Ch) : VideoMixer.Ch :=
  ⟨fl.read (fl.show_ c.width), fl.read (fl.show_ c.height), fl.read (fl.show_ c.x), fl.read (fl.show_ c.y), c.layer, c.enabled,
    fl.read (fl.show_ c.opacity)⟩

theorem back_ok (fl : Floats) (ho : fl.Ok) (n : Nat) (c : VideoMixer.Ch) (h : ChOk n c) : ChOk n (back fl c) :=
  ⟨ho.pos _ h.width, ho.pos _ h.height, ho.nonneg _ h.x, ho.nonneg _ h.y, ⟨ho.nonneg _ h.opacity.1, ho.le_one _ h.opacity.2⟩, h.layer⟩

theorem channel_event (fl : Floats) (s : VideoMixer.St) (id : Int) (hi : Fits id) (w h x y : Str) (l : Int) (hl : Fits l) (en : Bool) (o : Str) :
    vmixEvent fl s (send "configChannel" (object [("id", intNode id), ("width", fltNode w), ("height", fltNode h), ("x", fltNode x),
        ("y", fltNode y), ("layer", intNode l), ("enabled", boolNode en), ("opacity", fltNode o)])) =
      .ok ((VideoMixer.configChannel s id (fl.read w) (fl.read h) (fl.read x) (fl.read y) l en (fl.read o)).2,
        (VideoMixer.configChannel s id (fl.read w) (fl.read h) (fl.read x) (fl.read y) l en (fl.read o)).1) := by
  have ht : taken .videoMixer (send "configChannel" (object [("id", intNode id), ("width", fltNode w), ("height", fltNode h),
      ("x", fltNode x), ("y", fltNode y), ("layer", intNode l), ("enabled", boolNode en), ("opacity", fltNode o)])) =
      .ok (.called "configChannel".toList [some (.int id), some (.flt w), some (.flt h), some (.flt x), some (.flt y), some (.int l),
        some (.bool en), some (.flt o)]) :=
    sent .videoMixer "configChannel" 0 _ rfl (by decide) _ _ (by given) (by given) rfl
  unfold vmixEvent
  rw [ht]
  simp only [R.bind, if_true]

/-- **C81**: after an accepted `configChannel` the mixer reports the channel as asked for and everything else as before. -/
theorem channel_told (fl : Floats) (ids : List Int) (s s' : VideoMixer.St) (id : Int) (hi : Fits id) (w h x y : Str) (l : Int) (hl : Fits l)
    (en : Bool) (o : Str)
    (e : vmixEvent fl s (send "configChannel" (object [("id", intNode id), ("width", fltNode w), ("height", fltNode h), ("x", fltNode x),
        ("y", fltNode y), ("layer", intNode l), ("enabled", boolNode en), ("opacity", fltNode o)])) = .ok (s', true)) :
    chItem fl s' id = some [("id", intNode id), ("width", fltNode (fl.show_ (fl.read w))), ("height", fltNode (fl.show_ (fl.read h))),
      ("x", fltNode (fl.show_ (fl.read x))), ("y", fltNode (fl.show_ (fl.read y))), ("layer", intNode l), ("enabled", boolNode en),
      ("opacity", fltNode (fl.show_ (fl.read o)))] ∧
    (∀ k, k ≠ id → chItem fl s' k = chItem fl s k) ∧
    (∀ n, n ≠ "channels" → (vmixReport fl ids s').lookup n = (vmixReport fl ids s).lookup n) := by
  rw [channel_event fl s id hi w h x y l hl en o] at e
  simp only [R.ok.injEq, Prod.mk.injEq] at e
  obtain ⟨_, _, k3⟩ := configChannel_accepted s s' _ _ _ _ _ _ _ _ (Prod.ext e.2 e.1)
  rw [k3]
  refine ⟨?_, ?_, ?_⟩
  · unfold chItem; simp only [if_true, Option.map_some]
  · intro k hk; unfold chItem; simp only [if_neg hk]
  · intro n hn
    unfold vmixReport
    have : (n == "channels") = false := by simpa using hn
    simp only [List.lookup_cons, this]

theorem size_event (fl : Floats) (s : VideoMixer.St) (ps : List (String × Node)) (w h : Int) (hw : Fits w) (hh : Fits h)
    (e1 : ps.lookup "width" = some (intNode w)) (e2 : ps.lookup "height" = some (intNode h)) (e3 : ps.lookup "fps" = none) :
    vmixEvent fl s (apiEvent "configure" ps) = .ok ((VideoMixer.configure s w h 0).2, (VideoMixer.configure s w h 0).1) := by
  have ht : taken .videoMixer (apiEvent "configure" ps) = .ok (.called "configure".toList [some (.int w), some (.int h), none]) := by
    refine sent .videoMixer "configure" 1 _ rfl (by decide) _ _ ?_ ?_ rfl
    · intro q hq
      simp only [mayBe, List.mem_cons, List.not_mem_nil, or_false] at hq
      rcases hq with rfl | rfl | rfl
      · exact Or.inr ⟨_, e1, int_proper w, by rw [int_value w hw]; rfl⟩
      · exact Or.inr ⟨_, e2, int_proper h, by rw [int_value h hh]; rfl⟩
      · exact Or.inl ⟨e3, rfl⟩
    · simp only [List.map_cons, List.map_nil, mayBe, e1, e2, e3, Option.bind_some, Option.bind_none, int_value w hw, int_value h hh]
  unfold vmixEvent
  rw [ht]
  simp only [R.bind]
  rw [if_neg (by decide)]
  rfl

/-- **C81**: the entry of one video mixer, sent as parameters of `configure` to another one with the same channels and as many at most, and then
each channel as parameters of `configChannel`, makes the other one report the same; its frame time stays. -/
theorem channels_restored (fl : Floats) (ho : fl.Ok) (ids : List Int) (s t : VideoMixer.St) (hs : VMixOk s) (hm : t.maxCh = s.maxCh)
    (hi : ∀ id ∈ ids, Fits id) (hst : ∀ id ∈ ids, (s.chans id).isSome = (t.chans id).isSome) (type role : String) (items : List Node)
    (h1 : (vmixReport fl ids s).lookup "channels" = some (.arr items)) :
    ∃ t', events (vmixEvent fl) t (apiEvent "configure" (entry type role (vmixReport fl ids s)) :: items.map (send "configChannel")) =
        .ok (t', true) ∧ vmixReport fl ids t' = vmixReport fl ids s ∧ t'.frameTime = t.frameTime := by
  have e1 : items = (ids.filterMap (chItem fl s)).map object := by
    simp [vmixReport, List.lookup] at h1; exact h1.symm
  subst e1
  have hsz : VideoMixer.configure t s.outW s.outH 0 = (true, { t with outH := s.outH, outW := s.outW }) := by
    rcases configure_cases t s.outW s.outH 0 with ⟨_, k⟩ | ⟨k, _⟩
    · have := hs.width
      have := hs.height
      omega
    · rw [k]; rfl
  obtain ⟨t', g1, g2, g3⟩ := items_sent (vmixEvent fl) (fun c => c.chans) (chItem fl s)
    (fun id => back fl ((s.chans id).getD VideoMixer.Ch.default)) "configChannel"
    (fun c => c.outW = s.outW ∧ c.outH = s.outH ∧ c.maxCh = s.maxCh ∧ c.frameTime = t.frameTime) ids
    (by
      intro c id ps hid hps hc hsome
      unfold chItem at hps
      rw [Option.map_eq_some_iff] at hps
      obtain ⟨g, hg, rfl⟩ := hps
      have hok := hs.chans id g hg
      have hl : Fits g.layer := ⟨by have := hok.layer.1; omega, by have := hok.layer.2; have := hs.maxCh; omega⟩
      have hb : ChOk c.maxCh (back fl g) := by rw [hc.2.2.1]; exact back_ok fl ho _ g hok
      refine ⟨{ c with chans := fun k => if k = id then some (back fl g) else c.chans k }, ?_, hc, ?_⟩
      · rw [channel_event fl c id (hi id hid) _ _ _ _ _ hl]
        have := configChannel_of c id (back fl g) hb hsome
        unfold back at this
        simp only [] at this
        rw [this]
        rfl
      · simp only [hg, Option.getD_some])
    ids (fun _ h => h) { t with outH := s.outH, outW := s.outW } ⟨rfl, rfl, hm, rfl⟩ (by
      intro id hid hsome
      show (t.chans id).isSome = true
      rw [← hst id hid]
      simpa [chItem] using hsome)
  refine ⟨t', ?_, ?_, g2.2.2.2⟩
  · have hw := hs.width
    have hh := hs.height
    rw [events, size_event fl t _ s.outW s.outH ⟨by omega, by omega⟩ ⟨by omega, by omega⟩ (by simp [entry, vmixReport, List.lookup])
      (by simp [entry, vmixReport, List.lookup]) (by simp [entry, vmixReport, List.lookup]), hsz]
    simp only [R.bind]
    rw [g1]
    rfl
  · have hl : ids.filterMap (chItem fl t') = ids.filterMap (chItem fl s) := by
      refine List.filterMap_congr fun id hid => ?_
      have := g3 id
      simp only [] at this
      unfold chItem
      rw [this]
      cases hg : s.chans id with
      | none =>
        have ht : t.chans id = none := by
          have := hst id hid
          rw [hg] at this
          simpa using this.symm
        simp [chItem, hg, ht]
      | some g => simp [chItem, hg, hid, back, ho.again]
    unfold vmixReport
    rw [hl, g2.1, g2.2.1, g2.2.2.1]

/-- A mixer with one channel in the upper left quarter. -/
def demoVMix : VideoMixer.St := ⟨fun k => if k = 7 then some ⟨1 / 2, 1 / 2, 0, 0, 1, true, 1⟩ else none, 1280, 720, 8, 40000, 0⟩

example : VMixOk demoVMix := by
  refine ⟨by decide, by decide, by decide, fun id c h => ?_⟩
  simp only [demoVMix] at h
  split at h
  · cases h
    refine ⟨?_, ?_, ?_, ?_, ⟨?_, ?_⟩, ⟨?_, ?_⟩⟩ <;> simp [demoVMix]
  · cases h

/-- The frame time of a video mixer is not reported. -/
theorem mixer_time_not_reported (fl : Floats) (ids : List Int) (s : VideoMixer.St) (f : Int) :
    vmixReport fl ids { s with frameTime := f } = vmixReport fl ids s := rfl

/-! ## Video splitter -/

/-- What holds of a crop that has been configured. -/
structure CropOk (c : VideoMixer.Crop) : Prop where
  w : 0 < c.w ∧ c.w ≤ 2147483647
  h : 0 < c.h ∧ c.h ≤ 2147483647
  x : 0 ≤ c.x ∧ c.x ≤ 2147483647
  y : 0 ≤ c.y ∧ c.y ≤ 2147483647
  degree : -360 ≤ c.degree ∧ c.degree ≤ 360

theorem configCrop_accepted (m m' : Int → Option VideoMixer.Crop) (id w h x y d : Int) (e : VideoMixer.configCrop m id w h x y d = (true, m')) :
    0 < w ∧ 0 < h ∧ 0 ≤ x ∧ 0 ≤ y ∧ -360 ≤ d ∧ d ≤ 360 ∧ m' = fun k => if k = id then some ⟨w, h, x, y, d⟩ else m k := by
  unfold VideoMixer.configCrop at e
  split at e
  · simp at e
  · split at e
    · simp at e
    · rename_i h1
      simp only [Prod.mk.injEq, true_and] at e
      refine ⟨by omega, by omega, by omega, by omega, by omega, by omega, e.symm⟩

theorem crop_event (s : Split) (id w h x y d : Int) (hi : Fits id) (hw : Fits w) (hh : Fits h) (hx : Fits x) (hy : Fits y) (hd : Fits d) :
    splitEvent s (send "configCrop" (object [("id", intNode id), ("width", intNode w), ("height", intNode h), ("x", intNode x),
        ("y", intNode y), ("degree", intNode d)])) =
      .ok ({ s with crops := (VideoMixer.configCrop s.crops id w h x y d).2 }, (VideoMixer.configCrop s.crops id w h x y d).1) := by
  have ht : taken .videoSplitter (send "configCrop" (object [("id", intNode id), ("width", intNode w), ("height", intNode h),
      ("x", intNode x), ("y", intNode y), ("degree", intNode d)])) =
      .ok (.called "configCrop".toList [some (.int id), some (.int w), some (.int h), some (.int x), some (.int y), some (.int d)]) :=
    sent .videoSplitter "configCrop" 0 _ rfl (by decide) _ _ (by given) (by given) rfl
  unfold splitEvent
  rw [ht]
  simp only [R.bind, if_true, intArg, Option.getD_some]

/-- **C81**: after an accepted `configCrop` the splitter reports the crop as asked for and everything else as before. -/
theorem crop_told (ids : List Int) (s s' : Split) (id w h x y d : Int) (hi : Fits id) (hw : Fits w) (hh : Fits h) (hx : Fits x) (hy : Fits y)
    (hd : Fits d) (e : splitEvent s (send "configCrop" (object [("id", intNode id), ("width", intNode w), ("height", intNode h),
        ("x", intNode x), ("y", intNode y), ("degree", intNode d)])) = .ok (s', true)) :
    cropItem s' id = some [("id", intNode id), ("width", intNode w), ("height", intNode h), ("x", intNode x), ("y", intNode y),
      ("degree", intNode d)] ∧
    (∀ k, k ≠ id → cropItem s' k = cropItem s k) ∧
    (∀ n, n ≠ "crops" → (splitReport ids s').lookup n = (splitReport ids s).lookup n) := by
  rw [crop_event s id w h x y d hi hw hh hx hy hd] at e
  simp only [R.ok.injEq, Prod.mk.injEq] at e
  obtain ⟨e1, e2⟩ := e
  cases hc : VideoMixer.configCrop s.crops id w h x y d with
  | mk b mm =>
  rw [hc] at e1 e2
  cases e2
  obtain ⟨_, _, _, _, _, _, rfl⟩ := configCrop_accepted s.crops mm _ _ _ _ _ _ hc
  subst e1
  refine ⟨?_, ?_, ?_⟩
  · unfold cropItem; simp only [if_true, Option.map_some]
  · intro k hk; unfold cropItem; simp only [if_neg hk]
  · intro n hn
    unfold splitReport
    have : (n == "crops") = false := by simpa using hn
    simp only [List.lookup_cons, this]

theorem time_event (s : Split) (z : Int) (hz : Fits z) (h0 : 0 ≤ z) :
    splitEvent s (send "configure" (object [("fTime", intNode z)])) = .ok ({ s with frameTime := z }, true) := by
  have ht : taken .videoSplitter (send "configure" (object [("fTime", intNode z)])) = .ok (.called "configure".toList [some (.int z)]) :=
    sent .videoSplitter "configure" 1 _ rfl (by decide) _ _ (by given) (by given) rfl
  unfold splitEvent
  rw [ht]
  simp only [R.bind, List.head?_cons, Option.bind_some, intArg, Option.getD_some]
  rw [if_neg (by decide)]
  exact if_neg (by omega)

/-- **C81**: the crops in the report of one splitter, sent item by item to another one with the same outputs, and the reported frame time,
sent as `fTime`, make the other one report the same, if the first one's crops have all been configured. -/
theorem crops_restored (ids : List Int) (s t : Split) (hs : ∀ id c, s.crops id = some c → CropOk c)
    (hf : 0 ≤ s.frameTime ∧ s.frameTime ≤ 2147483647) (hi : ∀ id ∈ ids, Fits id)
    (hst : ∀ id ∈ ids, (s.crops id).isSome = (t.crops id).isSome) (items : List Node) (m : Node)
    (h1 : (splitReport ids s).lookup "crops" = some (.arr items)) (h2 : (splitReport ids s).lookup "frameTime" = some m) :
    ∃ t', events splitEvent t (send "configure" (object [("fTime", m)]) :: items.map (send "configCrop")) = .ok (t', true) ∧
      splitReport ids t' = splitReport ids s := by
  have e1 : items = (ids.filterMap (cropItem s)).map object := by
    simp [splitReport, List.lookup] at h1; exact h1.symm
  have hti : toI32 s.frameTime = s.frameTime := by unfold toI32; split <;> omega
  have e2 : m = intNode s.frameTime := by
    simp [splitReport, List.lookup, hti] at h2; exact h2.symm
  subst e1 e2
  obtain ⟨t', g1, g2, g3⟩ := items_sent splitEvent (fun c => c.crops) (cropItem s)
    (fun id => (s.crops id).getD VideoMixer.Crop.default) "configCrop" (fun c => c.frameTime = s.frameTime) ids
    (by
      intro c id ps hid hps hc hsome
      unfold cropItem at hps
      rw [Option.map_eq_some_iff] at hps
      obtain ⟨g, hg, rfl⟩ := hps
      obtain ⟨⟨a1, a2⟩, ⟨b1, b2⟩, ⟨c1, c2⟩, ⟨d1, d2⟩, ⟨f1, f2⟩⟩ := hs id g hg
      obtain ⟨old, hold⟩ := Option.isSome_iff_exists.1 hsome
      have hold : c.crops id = some old := hold
      refine ⟨{ c with crops := fun k => if k = id then some g else c.crops k }, ?_, hc, ?_⟩
      · rw [crop_event c id _ _ _ _ _ (hi id hid) ⟨by omega, by omega⟩ ⟨by omega, by omega⟩ ⟨by omega, by omega⟩ ⟨by omega, by omega⟩
          ⟨by omega, by omega⟩]
        unfold VideoMixer.configCrop
        rw [hold]
        simp only []
        rw [if_neg (by omega)]
      · simp only [hg, Option.getD_some])
    ids (fun _ h => h) { t with frameTime := s.frameTime } rfl (by
      intro id hid hsome
      show (t.crops id).isSome = true
      rw [← hst id hid]
      simpa [cropItem] using hsome)
  refine ⟨t', ?_, ?_⟩
  · rw [events, time_event t s.frameTime ⟨by omega, by omega⟩ hf.1]
    simp only [R.bind]
    rw [g1]
    rfl
  · have hl : ids.filterMap (cropItem t') = ids.filterMap (cropItem s) := by
      refine List.filterMap_congr fun id hid => ?_
      have := g3 id
      simp only [] at this
      unfold cropItem
      rw [this]
      cases hg : s.crops id with
      | none =>
        have ht : t.crops id = none := by
          have := hst id hid
          rw [hg] at this
          simpa using this.symm
        simp [cropItem, hg, ht]
      | some g => simp [cropItem, hg, hid]
    unfold splitReport
    rw [hl, g2]

theorem num_fits (p : Node) (k : String) (v : Option Val) (h : take p k toNum = .ok v) : ∃ z, v = some (.int z) ∧ Fits z := by
  unfold take at h
  cases h1 : Control.get p k.toList with
  | dies => rw [h1] at h; simp [R.bind] at h
  | ub => rw [h1] at h; simp [R.bind] at h
  | ok n =>
    rw [h1] at h
    simp only [R.bind, toNum] at h
    cases h2 : toInt n with
    | dies => rw [h2] at h; simp at h
    | ub => rw [h2] at h; simp at h
    | ok z =>
      rw [h2] at h
      simp only [R.ok.injEq] at h
      refine ⟨z, h.symm, ?_⟩
      unfold toInt at h2
      split at h2
      · cases h2; exact ⟨by decide, by decide⟩
      · cases h2; exact readInt_fits _
      · cases h2

theorem bind_is_ok {α β : Type} {x : R α} {f : α → R β} {b : β} (h : x.bind f = .ok b) : ∃ a, x = .ok a ∧ f a = .ok b := by
  cases x with
  | ok a => exact ⟨a, rfl, h⟩
  | dies => simp [R.bind] at h
  | ub => simp [R.bind] at h

/-- The numbers of a `configCrop` that is carried out are `int`s. -/
theorem crop_args (e : Node) (args : Args) (h : taken .videoSplitter e = .ok (.called "configCrop".toList args)) :
    ∀ v ∈ args, ∀ z, v = some (.int z) → Fits z := by
  unfold taken execute at h
  obtain ⟨a, _, h⟩ := bind_is_ok h
  obtain ⟨p, _, h⟩ := bind_is_ok h
  split at h
  · cases h
  · split at h
    · cases h
    · rename_i _ x hx
      have hm := List.mem_of_find?_eq_some hx
      have hk := List.find?_some hx
      simp only [decide_eq_true_eq] at hk
      obtain ⟨r, hr, h⟩ := bind_is_ok h
      cases r with
      | none => cases h
      | some args' =>
        simp only [R.ok.injEq, Taken.called.injEq] at h
        obtain ⟨h1, rfl⟩ := h
        have hx : x = ("configCrop", configCrop) := by
          simp only [eventMap, List.mem_cons, List.not_mem_nil, or_false] at hm
          rcases hm with rfl | rfl
          · rfl
          · exact absurd (hk.trans h1) (by decide)
        subst hx
        cases p with
        | none => cases hr
        | some p =>
          simp only [configCrop] at hr
          obtain ⟨b0, _, hr⟩ := bind_is_ok hr
          obtain ⟨b1, _, hr⟩ := bind_is_ok hr
          split at hr
          · cases hr
          · obtain ⟨i, hi, hr⟩ := bind_is_ok hr
            obtain ⟨w, hw, hr⟩ := bind_is_ok hr
            obtain ⟨g, hg, hr⟩ := bind_is_ok hr
            obtain ⟨x, hx, hr⟩ := bind_is_ok hr
            obtain ⟨y, hy, hr⟩ := bind_is_ok hr
            obtain ⟨d, hd, hr⟩ := bind_is_ok hr
            simp only [R.ok.injEq, Option.some.injEq] at hr
            subst hr
            have hd' : d = none ∨ take p "degree" toNum = .ok d := by
              unfold opt at hd
              obtain ⟨b, _, hd⟩ := bind_is_ok hd
              split at hd
              · exact Or.inr hd
              · cases hd; exact Or.inl rfl
            have fin : ∀ (k : String) (v : Option Val) (z : Int), take p k toNum = .ok v → v = some (.int z) → Fits z := by
              intro k v z ht hv
              obtain ⟨y, e1, e2⟩ := num_fits p k v ht
              rw [hv] at e1
              cases e1
              exact e2
            intro v hv z hz
            simp only [List.mem_cons, List.not_mem_nil, or_false] at hv
            rcases hv with rfl | rfl | rfl | rfl | rfl | rfl
            · exact fin _ _ z hi hz
            · exact fin _ _ z hw hz
            · exact fin _ _ z hg hz
            · exact fin _ _ z hx hz
            · exact fin _ _ z hy hz
            · rcases hd' with rfl | hd'
              · cases hz
              · exact fin _ _ z hd' hz

/-- Whatever event a splitter is sent, each crop is new or configured within its limits. -/
theorem split_ok_event (s s' : Split) (e : Node) (ok : Bool) (hs : ∀ id c, s.crops id = some c → c = VideoMixer.Crop.default ∨ CropOk c)
    (h : splitEvent s e = .ok (s', ok)) : ∀ id c, s'.crops id = some c → c = VideoMixer.Crop.default ∨ CropOk c := by
  unfold splitEvent at h
  obtain ⟨t, ht, h⟩ := bind_is_ok h
  cases t with
  | unknown => simp only [R.ok.injEq, Prod.mk.injEq] at h; rw [← h.1]; exact hs
  | refused => simp only [R.ok.injEq, Prod.mk.injEq] at h; rw [← h.1]; exact hs
  | called a args =>
    simp only [] at h
    split at h
    · rename_i ha
      subst ha
      have hfit := crop_args e args ht
      split at h
      · rename_i id w hh x y d
        simp only [R.ok.injEq, Prod.mk.injEq] at h
        obtain ⟨h1, h2⟩ := h
        cases hc : VideoMixer.configCrop s.crops id w hh x y ((intArg d).getD 0) with
        | mk b mm =>
          rw [hc] at h1
          subst h1
          cases b with
          | false =>
            have : mm = s.crops := by
              unfold VideoMixer.configCrop at hc
              split at hc
              · cases hc; rfl
              · split at hc <;> cases hc; rfl
            rw [this]; exact hs
          | true =>
            obtain ⟨k1, k2, k3, k4, k5, k6, rfl⟩ := configCrop_accepted s.crops mm _ _ _ _ _ _ hc
            intro k c hk
            simp only [] at hk
            split at hk
            · cases hk
              have f1 := hfit (some (.int w)) (by simp) w rfl
              have f2 := hfit (some (.int hh)) (by simp) hh rfl
              have f3 := hfit (some (.int x)) (by simp) x rfl
              have f4 := hfit (some (.int y)) (by simp) y rfl
              exact Or.inr ⟨⟨k1, f1.2⟩, ⟨k2, f2.2⟩, ⟨k3, f3.2⟩, ⟨k4, f4.2⟩, ⟨k5, k6⟩⟩
            · exact hs k c hk
      · simp only [R.ok.injEq, Prod.mk.injEq] at h; rw [← h.1]; exact hs
    · split at h
      · simp only [R.ok.injEq, Prod.mk.injEq] at h; rw [← h.1]; exact hs
      · simp only [R.ok.injEq, Prod.mk.injEq] at h; rw [← h.1]; exact hs

/-- A splitter with one configured crop. -/
def demoSplit : Split := ⟨fun k => if k = 3 then some ⟨640, 480, 0, 10, 0⟩ else none, 40000⟩

example : (∀ id c, demoSplit.crops id = some c → CropOk c) ∧ 0 ≤ demoSplit.frameTime ∧ demoSplit.frameTime ≤ 2147483647 := by
  refine ⟨fun id c h => ?_, by decide, by decide⟩
  simp only [demoSplit] at h
  split at h
  · cases h; refine ⟨by decide, by decide, by decide, by decide, by decide⟩
  · cases h

/-- A crop not configured yet is reported with the corner -1, -1 and size zero, and sent back it is refused. -/
theorem unconfigured_crop_refused (s t : Split) (id : Int) (hi : Fits id) (hc : s.crops id = some VideoMixer.Crop.default)
    (ps : List (String × Node)) (hp : cropItem s id = some ps) :
    ∃ t', splitEvent t (send "configCrop" (object ps)) = .ok (t', false) ∧ t' = t := by
  unfold cropItem at hp
  rw [hc] at hp
  simp only [Option.map_some, Option.some.injEq] at hp
  subst hp
  refine ⟨t, ?_, rfl⟩
  have h0 : Fits 0 := ⟨by decide, by decide⟩
  have h1 : Fits (-1) := ⟨by decide, by decide⟩
  refine (crop_event t id 0 0 (-1) (-1) 0 hi h0 h0 h1 h1 h0).trans ?_
  unfold VideoMixer.configCrop
  split
  · rfl
  · rw [if_pos (by decide)]

/-- The report of a splitter calls the frame time otherwise than `configure` does: the whole entry sent as parameters of `configure` sets it
to zero. -/
theorem splitter_entry_resets_time (ids : List Int) (s t : Split) (type role : String) :
    splitEvent t (apiEvent "configure" (entry type role (splitReport ids s))) = .ok ({ t with frameTime := 0 }, true) := by
  have ht : taken .videoSplitter (apiEvent "configure" (entry type role (splitReport ids s))) = .ok (.called "configure".toList [none]) :=
    sent .videoSplitter "configure" 1 _ rfl (by decide) _ _ (by simp [mayBe, entry, splitReport, List.lookup])
      (by simp [mayBe, entry, splitReport, List.lookup]) rfl
  unfold splitEvent
  rw [ht]
  simp only [R.bind]
  rw [if_neg (by decide)]
  rfl

/-! ## The other commands of the audio mixer -/

theorem mute_event (fl : Floats) (s : AudioMixer.Ctl ℚ) (id : Int) (hi : Fits id) :
    mixEvent fl s (send "muteChannel" (object [("id", intNode id)])) = .ok ((AudioMixer.setGain s id 0).2, (AudioMixer.setGain s id 0).1) := by
  have ht : taken .audioMixer (send "muteChannel" (object [("id", intNode id)])) = .ok (.called "muteChannel".toList [some (.int id)]) :=
    sent .audioMixer "muteChannel" 1 _ rfl (by decide) _ _ (by given) (by given) rfl
  unfold mixEvent
  rw [ht]
  rfl

/-- **C81**: muting a channel sets its gain, and no other, to zero. -/
theorem mute_told (fl : Floats) (s : AudioMixer.Ctl ℚ) (id : Int) (hi : Fits id) : ∃ s' b,
    mixEvent fl s (send "muteChannel" (object [("id", intNode id)])) = .ok (s', b) ∧ (b = true ↔ s.gains id ≠ none) ∧ s'.master = s.master ∧
    ∀ k, s'.gains k = if k = id then (s.gains k).map (fun _ => 0) else s.gains k := by
  refine ⟨_, _, mute_event fl s id hi, ?_⟩
  unfold AudioMixer.setGain
  cases h : s.gains id with
  | none =>
    refine ⟨by simp, rfl, fun k => ?_⟩
    by_cases hk : k = id
    · subst hk; rw [if_pos rfl, h]; rfl
    · rw [if_neg hk]
  | some g =>
    refine ⟨by simp, rfl, fun k => ?_⟩
    by_cases hk : k = id
    · subst hk; simp [h]
    · simp [hk]

/-- **C81**: soloing a channel sets its gain to one and all others to zero. -/
theorem solo_told (fl : Floats) (s : AudioMixer.Ctl ℚ) (id : Int) (hi : Fits id) : ∃ s' b,
    mixEvent fl s (send "soloChannel" (object [("id", intNode id)])) = .ok (s', b) ∧ (b = true ↔ s.gains id ≠ none) ∧ (b = false → s' = s) ∧
    s'.master = s.master ∧ (b = true → ∀ k, s'.gains k = (s.gains k).map fun _ => if k = id then 1 else 0) := by
  have ht : taken .audioMixer (send "soloChannel" (object [("id", intNode id)])) = .ok (.called "soloChannel".toList [some (.int id)]) :=
    sent .audioMixer "soloChannel" 2 _ rfl (by decide) _ _ (by given) (by given) rfl
  have e : mixEvent fl s (send "soloChannel" (object [("id", intNode id)])) =
      .ok ((AudioMixer.command s (.solo (some id))).2, (AudioMixer.command s (.solo (some id))).1) := by
    unfold mixEvent
    rw [ht]
    rfl
  refine ⟨_, _, e, ?_⟩
  cases h : s.gains id with
  | none => simp [AudioMixer.command, AudioMixer.setGain, h]
  | some g =>
    refine ⟨by simp [AudioMixer.command, AudioMixer.setGain, h], by simp [AudioMixer.command, AudioMixer.setGain, h],
      by simp [AudioMixer.command, AudioMixer.setGain, h], fun _ k => ?_⟩
    by_cases hk : k = id
    · subst hk; simp [AudioMixer.command, AudioMixer.setGain, h]
    · simp [AudioMixer.command, AudioMixer.setGain, h, hk]

/-- **C81**: muting everything sets the common gain to zero and leaves the channels alone. -/
theorem mute_master_told (fl : Floats) (s : AudioMixer.Ctl ℚ) (ps : List (String × Node)) :
    mixEvent fl s (send "muteMaster" (object ps)) = .ok ({ s with master := 0 }, true) := by
  have ht : taken .audioMixer (send "muteMaster" (object ps)) = .ok (.called "muteMaster".toList []) :=
    by
      unfold taken
      exact no_params_needed _ .audioMixer _ "muteMaster" (by simp) rfl
  unfold mixEvent
  rw [ht]
  rfl

example (fl : Floats) : ∃ s', mixEvent fl ⟨fun k => if k = 1 ∨ k = 2 then some (1/2) else none, 1⟩ (send "soloChannel" (object [("id", intNode 2)])) =
    .ok (s', true) ∧ s'.gains 1 = some 0 ∧ s'.gains 2 = some 1 := by
  obtain ⟨s', b, h1, h2, _, _, h5⟩ := solo_told fl ⟨fun k => if k = 1 ∨ k = 2 then some (1/2) else none, 1⟩ 2 ⟨by decide, by decide⟩
  have hb : b = true := h2.2 (by simp)
  exact ⟨s', hb ▸ h1, by rw [h5 hb]; rfl, by rw [h5 hb]; rfl⟩

end Lms.Reports
