import Verif.Reports.Read
import Verif.Mpd.Props

/-!
# C81: what the DASH filter and the resampler report of themselves
-/

namespace Lms.Reports

open Lms Lms.Json Lms.Control Lms.FilterEvents

/-- A configured DASH filter: its folder ends with a slash, it has a name, and its segments take some time. -/
structure DashOk (s : Dash) : Prop where
  path : s.path.getLast? = some '/'
  name : s.name ≠ []
  mpd : s.mpd = s.path ++ s.name ++ ".mpd".toList
  seg : 0 < s.segDur ∧ s.segDur < 4294967296
  mngr : s.mngr.isSome = true

theorem dash_cases (writable : Str → Bool) (s : Dash) (f n : Str) (d m t : Nat) :
    s.configure writable f n d m t = (s, false) ∨
    (writable f = true ∧ n ≠ [] ∧ d ≠ 0 ∧ ∃ ab, s.configure writable f n d m t =
      (⟨if f.getLast? = some '/' then f else f ++ ['/'], n, (if f.getLast? = some '/' then f else f ++ ['/']) ++ n ++ ".mpd".toList, d,
        some ab⟩, true)) := by
  unfold Dash.configure
  by_cases hw : writable f = true
  · rw [if_neg (by rw [hw]; decide)]
    by_cases hn : n = [] ∨ d = 0
    · rw [if_pos hn]; exact Or.inl rfl
    · rw [if_neg hn]
      simp only [not_or] at hn
      exact Or.inr ⟨hw, hn.1, hn.2, _, rfl⟩
  · rw [if_pos (by simpa using hw)]; exact Or.inl rfl

theorem slashed (f : Str) : (if f.getLast? = some '/' then f else f ++ ['/']).getLast? = some '/' := by
  split
  · assumption
  · simp

theorem u32_range (z : Int) : Encoder.u32 z < 4294967296 := by
  unfold Encoder.u32
  omega

/-- Whatever event a DASH filter is sent, once configured it stays so: a folder ending with a slash, a name, a duration, and the manifest
under that folder and name. -/
theorem dash_ok_event (writable : Str → Bool) (s s' : Dash) (e : Node) (ok : Bool) (hs : s.mngr.isSome = true → DashOk s)
    (h : dashEvent writable s e = .ok (s', ok)) : s'.mngr.isSome = true → DashOk s' := by
  unfold dashEvent at h
  cases ht : taken .dasher e with
  | dies => rw [ht] at h; simp [R.bind] at h
  | ub => rw [ht] at h; simp [R.bind] at h
  | ok t =>
    rw [ht] at h
    simp only [R.bind] at h
    cases t with
    | unknown => simp only [R.ok.injEq, Prod.mk.injEq] at h; rw [← h.1]; exact hs
    | refused => simp only [R.ok.injEq, Prod.mk.injEq] at h; rw [← h.1]; exact hs
    | called a args =>
      simp only [] at h
      split at h
      · split at h
        · rename_i f b d m t
          simp only [R.ok.injEq] at h
          have hd : ((intArg d).map Encoder.u32).getD (s.segDur % 4294967296) < 4294967296 := by
            cases intArg d with
            | none => exact Nat.mod_lt _ (by decide)
            | some z => exact u32_range z
          rcases dash_cases writable s ((textArg f).getD s.path) ((textArg b).getD s.name)
            (((intArg d).map Encoder.u32).getD (s.segDur % 4294967296)) (((intArg m).map Encoder.u32).getD ((s.mngr.map Prod.fst).getD 0))
            (((intArg t).map Encoder.u32).getD ((s.mngr.map Prod.snd).getD 0)) with k | ⟨_, k2, k3, ab, k⟩
          · rw [k] at h
            simp only [Prod.mk.injEq] at h; rw [← h.1]; exact hs
          · rw [k] at h
            simp only [Prod.mk.injEq] at h
            intro _
            rw [← h.1]
            exact ⟨slashed _, k2, rfl, ⟨by simp only []; omega, hd⟩, rfl⟩
        · simp only [R.ok.injEq, Prod.mk.injEq] at h; rw [← h.1]; exact hs
      · simp only [R.ok.injEq, Prod.mk.injEq] at h; rw [← h.1]; exact hs

/-- A new filter and any events. -/
theorem dash_ok_events (writable : Str → Bool) (es : List Node) : ∀ (s s' : Dash) (ok : Bool), (s.mngr.isSome = true → DashOk s) →
    events (dashEvent writable) s es = .ok (s', ok) → s'.mngr.isSome = true → DashOk s' := by
  induction es with
  | nil => intro s s' ok hs h; simp only [events, R.ok.injEq, Prod.mk.injEq] at h; rw [← h.1]; exact hs
  | cons e l ih =>
    intro s s' ok hs h
    rw [events] at h
    cases h1 : dashEvent writable s e with
    | dies => rw [h1] at h; simp [R.bind] at h
    | ub => rw [h1] at h; simp [R.bind] at h
    | ok r =>
      rw [h1] at h
      simp only [R.bind] at h
      cases h2 : events (dashEvent writable) r.1 l with
      | dies => rw [h2] at h; simp at h
      | ub => rw [h2] at h; simp at h
      | ok q =>
        rw [h2] at h
        simp only [R.ok.injEq, Prod.mk.injEq] at h
        rw [← h.1]
        exact ih r.1 q.1 q.2 (dash_ok_event writable s r.1 e r.2 hs h1) h2

/-- The event `configure` with a folder, a name and a duration, and nothing else it knows. -/
theorem dash_event (writable : Str → Bool) (s : Dash) (ps : List (String × Node)) (f n : Str) (z : Int) (hz : Fits z)
    (e1 : ps.lookup "folder" = some (ofString f)) (e2 : ps.lookup "baseName" = some (ofString n))
    (e3 : ps.lookup "segDurInSec" = some (intNode z)) (e4 : ps.lookup "maxSeg" = none) (e5 : ps.lookup "minBuffTime" = none)
    (hf : '\\' ∉ f) (hn : '\\' ∉ n) :
    dashEvent writable s (apiEvent "configure" ps) =
      .ok (s.configure writable f n (Encoder.u32 z) ((s.mngr.map Prod.fst).getD 0) ((s.mngr.map Prod.snd).getD 0)) := by
  have ht : taken .dasher (apiEvent "configure" ps) =
      .ok (.called "configure".toList [some (.text f), some (.text n), some (.int z), none, none]) := by
    refine sent .dasher "configure" 0 _ rfl (by decide) _ _ ?_ ?_ rfl
    · intro q hq
      simp only [mayBe, List.mem_cons, List.not_mem_nil, or_false] at hq
      rcases hq with rfl | rfl | rfl | rfl | rfl
      · exact Or.inr ⟨_, e1, text_proper f, by rw [text_value f hf]; rfl⟩
      · exact Or.inr ⟨_, e2, text_proper n, by rw [text_value n hn]; rfl⟩
      · exact Or.inr ⟨_, e3, int_proper z, by rw [int_value z hz]; rfl⟩
      · exact Or.inl ⟨e4, rfl⟩
      · exact Or.inl ⟨e5, rfl⟩
    · simp only [List.map_cons, List.map_nil, mayBe, e1, e2, e3, e4, e5, Option.bind_some, Option.bind_none, int_value z hz,
        text_value f hf, text_value n hn]
  unfold dashEvent
  rw [ht]
  simp only [R.bind, if_true]
  rfl

/-- **C81**: after an accepted `configure` naming all settings, the DASH filter reports the folder with a slash at its end, the name, the
manifest under both, the duration, and the number of segments and buffer time asked for, brought within their limits. -/
theorem dash_told (writable : Str → Bool) (s s' : Dash) (f n : Str) (d m t : Int) (hd : Fits d) (hm : Fits m) (ht : Fits t) (hf : '\\' ∉ f)
    (hn : '\\' ∉ n) (readers : List Int)
    (h : dashEvent writable s (apiEvent "configure" [("folder", ofString f), ("baseName", ofString n), ("segDurInSec", intNode d),
      ("maxSeg", intNode m), ("minBuffTime", intNode t)]) = .ok (s', true)) :
    ∃ p a b, (p = f ∨ p = f ++ ['/']) ∧ p.getLast? = some '/' ∧
      dashReport readers s' = [("folder", ofString p), ("baseName", ofString n), ("mpdURI", ofString (p ++ n ++ ".mpd".toList)),
        ("segDurInSec", intNode d), ("maxSegments", intNode a), ("minBufferTime", intNode b), ("readers", .arr (readers.map intNode))] ∧
      (2 ≤ m → a = m) ∧ (0 ≤ m → m < 2 → a = 2) ∧
      (0 < d → 2 ≤ m → m * d < 2147483648 → 0 ≤ t → b = max (2 * d) (min t (m * d))) := by
  have hk : taken .dasher (apiEvent "configure" [("folder", ofString f), ("baseName", ofString n), ("segDurInSec", intNode d),
      ("maxSeg", intNode m), ("minBuffTime", intNode t)]) =
      .ok (.called "configure".toList [some (.text f), some (.text n), some (.int d), some (.int m), some (.int t)]) := by
    refine sent .dasher "configure" 0 _ rfl (by decide) _ _ ?_ ?_ rfl <;>
      simp [mayBe, List.lookup, int_value, text_value, int_proper, text_proper, *]
  unfold dashEvent at h
  rw [hk] at h
  simp only [R.bind, if_true, textArg, intArg, Option.map_some, Option.getD_some, R.ok.injEq] at h
  unfold Dash.configure at h
  split at h
  · simp at h
  · simp only [] at h
    split at h
    · simp at h
    · rename_i hw hnz
      simp only [Prod.mk.injEq, and_true] at h
      have hr : toI32 ((Encoder.u32 d : Nat) : Int) = d := by
        obtain ⟨h1, h2⟩ := hd
        unfold toI32 Encoder.u32
        split <;> omega
      subst h
      refine ⟨if f.getLast? = some '/' then f else f ++ ['/'],
        Encoder.s32 (Mpd.configure (Mpd.State.init 0) (Encoder.u32 t) (Encoder.u32 m) (Encoder.u32 d)).maxSeg,
        Encoder.s32 (Mpd.configure (Mpd.State.init 0) (Encoder.u32 t) (Encoder.u32 m) (Encoder.u32 d)).minBuf, ?_, slashed f, ?_, ?_, ?_, ?_⟩
      · split
        · exact Or.inl rfl
        · exact Or.inr rfl
      · unfold dashReport
        simp only []
        rw [hr]
        simp only [List.cons_append, List.nil_append]
      · intro h2
        obtain ⟨_, m2⟩ := hm
        have e : Encoder.u32 m = m.toNat := by unfold Encoder.u32; omega
        show Encoder.s32 (if Encoder.u32 m ≥ 2 then Encoder.u32 m else 2) = m
        rw [e, if_pos (by omega)]
        unfold Encoder.s32
        rw [if_pos (by omega)]
        omega
      · intro h1 h2
        have e : Encoder.u32 m = m.toNat := by unfold Encoder.u32; omega
        show Encoder.s32 (if Encoder.u32 m ≥ 2 then Encoder.u32 m else 2) = 2
        rw [e, if_neg (by omega)]
        rfl
      · intro h1 h2 h3 h4
        obtain ⟨_, m2⟩ := hm
        obtain ⟨_, d2⟩ := hd
        obtain ⟨_, t2⟩ := ht
        have e : Encoder.u32 m = m.toNat := by unfold Encoder.u32; omega
        have e' : Encoder.u32 d = d.toNat := by unfold Encoder.u32; omega
        have e'' : Encoder.u32 t = t.toNat := by unfold Encoder.u32; omega
        obtain ⟨m, rfl⟩ := Int.eq_ofNat_of_zero_le (show 0 ≤ m by omega)
        obtain ⟨d, rfl⟩ := Int.eq_ofNat_of_zero_le (show 0 ≤ d by omega)
        obtain ⟨t, rfl⟩ := Int.eq_ofNat_of_zero_le h4
        simp only [Int.toNat_natCast] at e e' e''
        have h3' : m * d < 2147483648 := by exact_mod_cast h3
        have h5 : 2 * d ≤ m * d := Nat.mul_le_mul_right d (by omega)
        have hb : (Mpd.configure (Mpd.State.init 0) (Encoder.u32 (t : Int)) (Encoder.u32 (m : Int)) (Encoder.u32 (d : Int))).minBuf =
            max (2 * d) (min t (m * d)) := by
          rw [e, e', e'']
          show (if t ≥ (if m ≥ 2 then m else 2) * d % 2 ^ 32 then (if m ≥ 2 then m else 2) * d % 2 ^ 32 else
            if t ≥ 2 * d % 2 ^ 32 then t else 2 * d % 2 ^ 32) = _
          rw [if_pos (show m ≥ 2 by omega), Nat.mod_eq_of_lt (show m * d < 2 ^ 32 by omega),
            Nat.mod_eq_of_lt (show 2 * d < 2 ^ 32 by omega)]
          split
          · omega
          · split <;> omega
        rw [hb]
        unfold Encoder.s32
        rw [if_pos (by omega)]
        push_cast
        rfl

theorem dash_lookup (readers : List Int) (n : String) (h1 : n ≠ "maxSegments") (h2 : n ≠ "minBufferTime") (h3 : n ≠ "readers") (u : Dash) :
    (dashReport readers u).lookup n = [("folder", ofString u.path), ("baseName", ofString u.name), ("mpdURI", ofString u.mpd),
      ("segDurInSec", intNode (toI32 u.segDur))].lookup n := by
  have b1 : (n == "maxSegments") = false := by simpa using h1
  have b2 : (n == "minBufferTime") = false := by simpa using h2
  have b3 : (n == "readers") = false := by simpa using h3
  unfold dashReport
  rw [List.append_assoc, List.lookup_append]
  obtain ⟨_, _, _, _, mn⟩ := u
  cases mn with
  | none => simp only [List.nil_append, List.lookup_cons (a := n) (k := "readers"), b3, List.lookup_nil, Option.or_none]
  | some ab =>
    obtain ⟨a, b⟩ := ab
    simp only [List.cons_append, List.nil_append, List.lookup_cons (a := n) (k := "readers"),
      List.lookup_cons (a := n) (k := "maxSegments"), List.lookup_cons (a := n) (k := "minBufferTime"), b1, b2, b3, List.lookup_nil,
      Option.or_none]

theorem dash_limits (readers : List Int) (u : Dash) (a b : Nat) (h : u.mngr = some (a, b)) :
    (dashReport readers u).lookup "maxSegments" = some (intNode (Encoder.s32 a)) ∧
    (dashReport readers u).lookup "minBufferTime" = some (intNode (Encoder.s32 b)) := by
  unfold dashReport
  rw [h]
  constructor <;> simp [List.lookup]

theorem dash_entry_event (writable : Str → Bool) (s t : Dash) (hs : DashOk s) (hp : '\\' ∉ s.path) (hn : '\\' ∉ s.name) (readers : List Int)
    (type role : String) : dashEvent writable t (apiEvent "configure" (entry type role (dashReport readers s))) =
      .ok (t.configure writable s.path s.name s.segDur ((t.mngr.map Prod.fst).getD 0) ((t.mngr.map Prod.snd).getD 0)) := by
  have hz : Fits (toI32 (s.segDur : Int)) := by
    unfold toI32
    constructor <;> split <;> omega
  have hu : Encoder.u32 (toI32 (s.segDur : Int)) = s.segDur := by
    obtain ⟨h1, h2⟩ := hs.seg
    unfold toI32 Encoder.u32
    split <;> omega
  have he : ∀ n, n ≠ "type" → n ≠ "role" → (entry type role (dashReport readers s)).lookup n = (dashReport readers s).lookup n := by
    intro n h1 h2
    have b1 : (n == "type") = false := by simpa using h1
    have b2 : (n == "role") = false := by simpa using h2
    unfold entry
    simp only [List.lookup_cons, b1, b2]
  have hev := dash_event writable t (entry type role (dashReport readers s)) s.path s.name (toI32 (s.segDur : Int)) hz
    (by rw [he _ (by decide) (by decide), dash_lookup readers _ (by decide) (by decide) (by decide)]; rfl)
    (by rw [he _ (by decide) (by decide), dash_lookup readers _ (by decide) (by decide) (by decide)]; simp [List.lookup])
    (by rw [he _ (by decide) (by decide), dash_lookup readers _ (by decide) (by decide) (by decide)]; simp [List.lookup])
    (by rw [he _ (by decide) (by decide), dash_lookup readers _ (by decide) (by decide) (by decide)]; simp [List.lookup])
    (by rw [he _ (by decide) (by decide), dash_lookup readers _ (by decide) (by decide) (by decide)]; simp [List.lookup]) hp hn
  rw [hu] at hev
  exact hev

/-- **C81**: the entry of one configured DASH filter, sent as parameters of `configure` to any other one that may write to the folder, makes the
other one report the same folder, name, manifest and duration. -/
theorem dash_restored (writable : Str → Bool) (s t : Dash) (hs : DashOk s) (hw : writable s.path = true) (hp : '\\' ∉ s.path)
    (hn : '\\' ∉ s.name) (readers : List Int) (type role : String) :
    ∃ t', dashEvent writable t (apiEvent "configure" (entry type role (dashReport readers s))) = .ok (t', true) ∧
      ∀ n ∈ ["folder", "baseName", "mpdURI", "segDurInSec"], (dashReport readers t').lookup n = (dashReport readers s).lookup n := by
  have hev := dash_entry_event writable s t hs hp hn readers type role
  rcases dash_cases writable t s.path s.name s.segDur ((t.mngr.map Prod.fst).getD 0) ((t.mngr.map Prod.snd).getD 0) with
    k | ⟨_, _, _, ab, k⟩
  · exfalso
    unfold Dash.configure at k
    rw [hw, if_neg (by decide)] at k
    have : ¬(s.name = [] ∨ s.segDur = 0) := by
      have := hs.seg.1
      rintro (h | h)
      · exact hs.name h
      · omega
    rw [if_neg this] at k
    simp at k
  · rw [k, if_pos hs.path] at hev
    refine ⟨_, hev, fun n hmem => ?_⟩
    have hne : n ≠ "maxSegments" ∧ n ≠ "minBufferTime" ∧ n ≠ "readers" := by
      simp only [List.mem_cons, List.not_mem_nil, or_false] at hmem
      rcases hmem with rfl | rfl | rfl | rfl <;> decide
    rw [dash_lookup readers n hne.1 hne.2.1 hne.2.2, dash_lookup readers n hne.1 hne.2.1 hne.2.2, hs.mpd]

/-- The folder with a slash at its end. -/
def withSlash (f : Str) : Str := if f.getLast? = some '/' then f else f ++ ['/']

/-- The parameters of the DASH filter's `configure`. -/
def dashPars : List Par := ((forms .dasher)[0]?.map fun x => x.2.pars).getD []

/-- **C81**: after an accepted `configure` naming only some settings, a configured DASH filter reports these as asked for and the others
as before. -/
theorem dash_partly_told (writable : Str → Bool) (s s' : Dash) (hs : DashOk s) (m l : List (Str × Node))
    (ha : actionOf (.obj m) = some "configure".toList) (hp : member "params" (.obj m) = some (.obj l)) (readers : List Int)
    (h : dashEvent writable s (.obj m) = .ok (s', true)) :
    (∀ p ∈ dashPars, p.name = "folder" ∨ p.name = "baseName" ∨ p.name = "segDurInSec" →
      (dashReport readers s').lookup p.name =
        (match p.read (.obj l) with
          | some (.text f) => some (ofString (if p.name = "folder" then withSlash f else f))
          | some (.int z) => some (intNode z)
          | _ => (dashReport readers s).lookup p.name)) ∧
    s'.mpd = s'.path ++ s'.name ++ ".mpd".toList := by
  unfold dashEvent at h
  cases ht : taken .dasher (.obj m) with
  | dies => rw [ht] at h; simp [R.bind] at h
  | ub => rw [ht] at h; simp [R.bind] at h
  | ok t =>
    rw [ht] at h
    simp only [R.bind] at h
    cases t with
    | unknown => simp at h
    | refused => simp at h
    | called b args =>
      obtain ⟨hb, hargs⟩ := carried_out .dasher "configure" 0 _ rfl m l ha hp b args ht
      subst hb
      simp only [if_true, List.map_cons, List.map_nil] at h hargs
      cases hargs
      simp only [R.ok.injEq] at h
      have hl : ∀ u : Dash, (dashReport readers u).lookup "folder" = some (ofString u.path) ∧
          (dashReport readers u).lookup "baseName" = some (ofString u.name) ∧
          (dashReport readers u).lookup "segDurInSec" = some (intNode (toI32 u.segDur)) := by
        intro u
        refine ⟨?_, ?_, ?_⟩ <;>
          (rw [dash_lookup readers _ (by decide) (by decide) (by decide)]; simp [List.lookup])
      have hr : ∀ d : Int, Fits d → toI32 ((Encoder.u32 d : Nat) : Int) = d := by
        intro d hd
        obtain ⟨h1, h2⟩ := hd
        unfold toI32 Encoder.u32
        split <;> omega
      have hmod : s.segDur % 4294967296 = s.segDur := Nat.mod_eq_of_lt hs.seg.2
      have hpath : withSlash s.path = s.path := if_pos hs.path
      revert h
      generalize hF : (textArg _).getD s.path = F
      generalize hN : (textArg _).getD s.name = N
      generalize hD : (Option.map Encoder.u32 (intArg _)).getD (s.segDur % 4294967296) = D
      generalize ((Option.map Encoder.u32 (intArg _)).getD ((s.mngr.map Prod.fst).getD 0)) = M
      generalize ((Option.map Encoder.u32 (intArg _)).getD ((s.mngr.map Prod.snd).getD 0)) = T
      intro h
      rcases dash_cases writable s F N D M T with k | ⟨_, _, _, ab, k⟩
      · rw [k] at h; simp at h
      · rw [k] at h
        simp only [Prod.mk.injEq, and_true] at h
        subst h
        refine ⟨?_, rfl⟩
        intro p hmem hname
        have hmem : p = mayBe "folder" .text ∨ p = mayBe "baseName" .text ∨ p = mayBe "segDurInSec" .int ∨ p = mayBe "maxSeg" .int ∨
            p = mayBe "minBuffTime" .int := by
          simpa [dashPars, forms] using hmem
        rcases hmem with rfl | rfl | rfl | rfl | rfl
        · show (dashReport readers _).lookup "folder" = _
          rw [(hl _).1]
          rcases text_read (mayBe "folder" .text) rfl (.obj l) with hh | ⟨t, hh⟩
          · rw [hh] at hF ⊢
            simp only [textArg, Option.getD_none] at hF
            subst hF
            show some (ofString (withSlash s.path)) = (dashReport readers s).lookup "folder"
            rw [(hl s).1, hpath]
          · rw [hh] at hF ⊢
            simp only [textArg, Option.getD_some] at hF
            subst hF
            rfl
        · show (dashReport readers _).lookup "baseName" = _
          rw [(hl _).2.1]
          rcases text_read (mayBe "baseName" .text) rfl (.obj l) with hh | ⟨t, hh⟩
          · rw [hh] at hN ⊢
            simp only [textArg, Option.getD_none] at hN
            subst hN
            show _ = (dashReport readers s).lookup "baseName"
            rw [(hl s).2.1]
          · rw [hh] at hN ⊢
            simp only [textArg, Option.getD_some] at hN
            subst hN
            rfl
        · show (dashReport readers _).lookup "segDurInSec" = _
          rw [(hl _).2.2]
          rcases int_read (mayBe "segDurInSec" .int) rfl (.obj l) with hh | ⟨z, hz, hh⟩
          · rw [hh] at hD ⊢
            simp only [intArg, Option.map_none, Option.getD_none] at hD
            subst hD
            show _ = (dashReport readers s).lookup "segDurInSec"
            rw [(hl s).2.2, hmod]
          · rw [hh] at hD ⊢
            simp only [intArg, Option.map_some, Option.getD_some] at hD
            subst hD
            show some (intNode (toI32 _)) = some (intNode z)
            rw [hr z hz]
        · rcases hname with h | h | h <;> exact absurd h (by decide)
        · rcases hname with h | h | h <;> exact absurd h (by decide)

/-- A configured filter. -/
def demoDash : Dash := ⟨"/tmp/dash/".toList, "live".toList, "/tmp/dash/live.mpd".toList, 4, some (6, 12)⟩

theorem demoDash_ok : DashOk demoDash := ⟨by decide +kernel, by decide +kernel, by decide +kernel, by decide, rfl⟩

example : (Dash.init 77).configure (fun _ => true) "/tmp/dash".toList "live".toList 4 6 12 = (demoDash, true) := by decide +kernel

/-- The number of segments and the buffer time are reported under other names than `configure` takes: sent back to a new filter they are not
taken over. -/
theorem segments_not_restored (writable : Str → Bool) (hw : writable demoDash.path = true) (junk : Nat) :
    (∃ t', dashEvent writable (Dash.init junk) (apiEvent "configure" (entry "dasher" "regular" (dashReport [] demoDash))) = .ok (t', true) ∧
      (dashReport [] t').lookup "maxSegments" = some (intNode 2) ∧ (dashReport [] t').lookup "minBufferTime" = some (intNode 8)) ∧
    (dashReport [] demoDash).lookup "maxSegments" = some (intNode 6) ∧ (dashReport [] demoDash).lookup "minBufferTime" = some (intNode 12) := by
  have hev := dash_entry_event writable demoDash (Dash.init junk) demoDash_ok (by decide +kernel) (by decide +kernel) [] "dasher" "regular"
  have hc : (Dash.init junk).configure writable demoDash.path demoDash.name demoDash.segDur (((Dash.init junk).mngr.map Prod.fst).getD 0)
      (((Dash.init junk).mngr.map Prod.snd).getD 0) = (⟨demoDash.path, demoDash.name, demoDash.mpd, 4, some (2, 8)⟩, true) := by
    unfold Dash.configure
    rw [hw, if_neg (by decide), if_neg (by decide +kernel)]
    show ((⟨if demoDash.path.getLast? = some '/' then demoDash.path else demoDash.path ++ ['/'], demoDash.name,
      (if demoDash.path.getLast? = some '/' then demoDash.path else demoDash.path ++ ['/']) ++ demoDash.name ++ ".mpd".toList, 4,
      some (2, 8)⟩, true) : Dash × Bool) = _
    rw [if_pos demoDash_ok.path, ← demoDash_ok.mpd]
  rw [hc] at hev
  exact ⟨⟨_, hev, (dash_limits [] _ 2 8 rfl).1, (dash_limits [] _ 2 8 rfl).2⟩, (dash_limits [] demoDash 6 12 rfl).1,
    (dash_limits [] demoDash 6 12 rfl).2⟩

/-- Before the first `configure` the duration that is reported is whatever was in memory: two new filters can report different ones. -/
theorem new_dash_reports_anything : ∃ j k, dashReport [] (Dash.init j) ≠ dashReport [] (Dash.init k) := by
  refine ⟨1, 2, fun h => ?_⟩
  have := congrArg (fun l => l.lookup "segDurInSec") h
  have hl : ∀ u : Dash, (dashReport [] u).lookup "segDurInSec" = some (intNode (toI32 u.segDur)) := by
    intro u
    rw [dash_lookup [] _ (by decide) (by decide) (by decide)]; simp [List.lookup]
  simp only [hl, Option.some.injEq] at this
  have e1 : toI32 ((Dash.init 1).segDur : Int) = 1 := by decide
  have e2 : toI32 ((Dash.init 2).segDur : Int) = 2 := by decide
  rw [e1, e2] at this
  have h3 := int_value 1 ⟨by decide, by decide⟩
  rw [this, int_value 2 ⟨by decide, by decide⟩] at h3
  cases h3

/-- **C81**: an event whose action a filter does not know changes none of its settings and is answered with failure. -/
theorem unknown_changes_nothing (l : List (Str × Node)) (a : Str) (ha : actionOf (.obj l) = some a)
    (hn : ∀ k, ∀ f ∈ forms k, f.1.toList ≠ a) (ho : ∀ k, ∀ n ∈ otherActions k, n.toList ≠ a) (fl : Floats) (writable : Str → Bool) :
    (∀ s : Enc, s.event (.obj l) = .ok (s, false)) ∧ (∀ s x, decEvent s x (.obj l) = .ok (s, false)) ∧
    (∀ s x, aencEvent s x (.obj l) = .ok (s, false)) ∧ (∀ s, mixEvent fl s (.obj l) = .ok (s, false)) ∧
    (∀ s, vmixEvent fl s (.obj l) = .ok (s, false)) ∧ (∀ s, splitEvent s (.obj l) = .ok (s, false)) ∧
    (∀ s, dashEvent writable s (.obj l) = .ok (s, false)) := by
  have h : ∀ k, taken k (.obj l) = .ok .unknown := fun k => unknown_action _ k l a ha (hn k) (ho k)
  refine ⟨?_, ?_, ?_, ?_, ?_, ?_, ?_⟩ <;> intros
  · unfold Enc.event; rw [h]; rfl
  · unfold decEvent; rw [h]; rfl
  · unfold aencEvent; rw [h]; rfl
  · unfold mixEvent; rw [h]; rfl
  · unfold vmixEvent; rw [h]; rfl
  · unfold splitEvent; rw [h]; rfl
  · unfold dashEvent; rw [h]; rfl

example : actionOf (apiEvent "reset" []) = some "reset".toList ∧ (∀ k, ∀ f ∈ forms k, f.1.toList ≠ "reset".toList) ∧
    (∀ k, ∀ n ∈ otherActions k, n.toList ≠ "reset".toList) := by
  refine ⟨by decide +kernel, fun k => ?_, fun k => ?_⟩ <;> cases k <;> decide +kernel

end Lms.Reports
