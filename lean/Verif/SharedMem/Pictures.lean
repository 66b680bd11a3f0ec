import Verif.SharedMem.Props

/-!
# C36: which pictures are offered
-/

namespace Lms.SharedMem

open Lms.Names (VCodec PixType)

/-! ## Specification -/

/-- A unit without its start code. -/
def strip : Bytes → Option Bytes
  | 0 :: 0 :: 1 :: p => some p
  | 0 :: 0 :: 0 :: 1 :: p => some p
  | _ => none

/-- An H.264 unit of one of the given types, with its start code. -/
def IsUnit (f : Frame) (types : List Nat) : Prop :=
  f.codec = some .h264 ∧ ∃ b p, strip f.data = some (b :: p) ∧ b.toNat % 32 ∈ types

/-- A picture as a stream delivers it: a delimiter and at least one unit.  With each frame comes whether the peer had handed the
area over when the frame came in. -/
structure Pic where
  aud : Frame × Bool
  first : Frame × Bool
  rest : List (Frame × Bool)

structure Pic.Ok (p : Pic) : Prop where
  aud : IsUnit p.aud.1 [9]
  units : ∀ u ∈ p.first :: p.rest, IsUnit u.1 [1, 5, 6, 7, 8]

def Pic.frames (p : Pic) : List (Frame × Bool) := p.aud :: p.first :: p.rest

/-- The units of a picture, each behind a four byte start code. -/
def annexB (l : List (Frame × Bool)) : Bytes := l.flatMap fun u => [0, 0, 0, 1] ++ (strip u.1.data).getD []

/-- What a stream of pictures should offer: each picture when the next begins, if the area is free then; the header fields are
those of the next picture. -/
def expected : List Pic → List Offer
  | a :: b :: l => (if b.first.2 then [⟨b.first.1, annexB (a.first :: a.rest)⟩] else []) ++ expected (b :: l)
  | _ => []

/-- Consecutive pictures have different numbers (the exporter keeps 16 bits of the previous one). -/
def Numbered : List Pic → Prop
  | a :: b :: l => b.first.1.seq ≠ a.first.1.seq % 65536 ∧ Numbered (b :: l)
  | _ => True

/-! ## Feeding frames -/

/-- SharedMemory.cpp:113-149 `doProcessFrame` for one frame after the other. -/
def feed : Exp → List (Frame × Bool) → Outcome (List Offer × Exp)
  | e, [] => .ok ([], e)
  | e, (f, wr) :: l =>
    (process e f wr).bind fun r => (feed r.2.2 l).bind fun r' => Outcome.ok (r.2.1.toList ++ r'.1, r'.2)

theorem feed_append (a b : List (Frame × Bool)) (e : Exp) :
    feed e (a ++ b) = (feed e a).bind fun r => (feed r.2 b).bind fun r' => Outcome.ok (r.1 ++ r'.1, r'.2) := by
  induction a generalizing e with
  | nil =>
    rw [List.nil_append, feed, Outcome.bind_ok]
    cases feed e b <;> rfl
  | cons x a ih =>
    obtain ⟨f, wr⟩ := x
    rw [List.cons_append, feed, feed]
    cases process e f wr with
    | ub => rfl
    | hang => rfl
    | ok r =>
      simp only [Outcome.bind_ok, ih]
      cases feed r.2.2 a with
      | ub => rfl
      | hang => rfl
      | ok r1 =>
        simp only [Outcome.bind_ok]
        cases feed r1.2 b with
        | ub => rfl
        | hang => rfl
        | ok r2 => simp [List.append_assoc]

def arrivals : List Act → List Frame
  | [] => []
  | .arrive f :: l => f :: arrivals l
  | _ :: l => arrivals l

/-- What the two processes offer is what feeding the frames offers, each with what the exporter saw. -/
theorem run_feeds (l : List Act) : ∀ s s' : Sys, run s l = .ok s' →
    ∃ fl os, feed s.exp fl = .ok (os, s'.exp) ∧ s'.offers = s.offers ++ os ∧ (fl.map (·.1)).Sublist (arrivals l) := by
  induction l with
  | nil =>
    intro s s' h
    simp only [run, Outcome.ok.injEq] at h
    subst h
    exact ⟨[], [], rfl, by simp, by simp [arrivals]⟩
  | cons a l ih =>
    intro s s' h
    rw [run] at h
    cases hs : step s a with
    | ub => rw [hs] at h; exact absurd h (by simp)
    | hang => rw [hs] at h; exact absurd h (by simp)
    | ok s1 =>
      rw [hs, Outcome.bind_ok] at h
      obtain ⟨fl, os, h1, h2, h3⟩ := ih s1 s' h
      cases a with
      | arrive f =>
        simp only [step] at hs
        by_cases hp : s.pend ≠ []
        · rw [if_pos hp] at hs
          simp only [Outcome.ok.injEq] at hs; subst hs
          exact ⟨fl, os, h1, h2, by rw [arrivals]; exact h3.cons _⟩
        · rw [if_neg hp] at hs
          cases hq : process s.exp f (s.mem 0 == WRITING) with
          | ub => rw [hq] at hs; exact absurd hs (by simp [Outcome.bind])
          | hang => rw [hq] at hs; exact absurd hs (by simp [Outcome.bind])
          | ok r =>
            rw [hq, Outcome.bind_ok] at hs
            simp only [Outcome.ok.injEq] at hs; subst hs
            refine ⟨(f, s.mem 0 == WRITING) :: fl, r.2.1.toList ++ os, ?_, ?_, ?_⟩
            · rw [feed, hq, Outcome.bind_ok, h1]; rfl
            · rw [h2]; simp [List.append_assoc]
            · rw [arrivals, List.map_cons]; exact h3.cons_cons _
      | write =>
        have : s1.exp = s.exp ∧ s1.offers = s.offers := by
          simp only [step] at hs
          split at hs <;> (simp only [Outcome.ok.injEq] at hs; subst hs; exact ⟨rfl, rfl⟩)
        rw [this.1] at h1; rw [this.2] at h2
        exact ⟨fl, os, h1, h2, h3⟩
      | look =>
        have : s1.exp = s.exp ∧ s1.offers = s.offers := by
          simp only [step] at hs
          split at hs <;> (simp only [Outcome.ok.injEq] at hs; subst hs; exact ⟨rfl, rfl⟩)
        rw [this.1] at h1; rw [this.2] at h2
        exact ⟨fl, os, h1, h2, h3⟩
      | read off =>
        have : s1.exp = s.exp ∧ s1.offers = s.offers := by
          simp only [step] at hs
          split at hs <;> (simp only [Outcome.ok.injEq] at hs; subst hs; exact ⟨rfl, rfl⟩)
        rw [this.1] at h1; rw [this.2] at h2
        exact ⟨fl, os, h1, h2, h3⟩
      | release =>
        have : s1.exp = s.exp ∧ s1.offers = s.offers := by
          simp only [step] at hs
          split at hs <;> (simp only [Outcome.ok.injEq] at hs; subst hs; exact ⟨rfl, rfl⟩)
        rw [this.1] at h1; rw [this.2] at h2
        exact ⟨fl, os, h1, h2, h3⟩

/-! ## Units -/

theorem strip_cases (d p : Bytes) (h : strip d = some p) : d = 0 :: 0 :: 1 :: p ∨ d = 0 :: 0 :: 0 :: 1 :: p := by
  unfold strip at h
  split at h
  · simp only [Option.some.injEq] at h; subst h; exact Or.inl rfl
  · simp only [Option.some.injEq] at h; subst h; exact Or.inr rfl
  · exact absurd h (by simp)

theorem startCode_short (f : Frame) (p : Bytes) (h : f.data = 0 :: 0 :: 1 :: p) : startCode f = 3 := by
  unfold startCode Frame.byte
  rw [h]; simp

theorem startCode_long (f : Frame) (p : Bytes) (h : f.data = 0 :: 0 :: 0 :: 1 :: p) : startCode f = 4 := by
  unfold startCode Frame.byte
  rw [h]; simp

theorem unit_facts (f : Frame) (b : UInt8) (p : Bytes) (h : strip f.data = some (b :: p)) :
    startCode f ≠ 0 ∧ f.data.length ≠ 0 ∧ nalType f = b.toNat % 32 ∧ startCode f ≤ f.data.length ∧ f.data.drop (startCode f) = b :: p := by
  rcases strip_cases _ _ h with hd | hd
  · have := startCode_short f _ hd
    refine ⟨by omega, by rw [hd]; simp, ?_, by rw [this, hd]; simp, by rw [this, hd]; rfl⟩
    unfold nalType Frame.byte; rw [this, hd]; rfl
  · have := startCode_long f _ hd
    refine ⟨by omega, by rw [hd]; simp, ?_, by rw [this, hd]; simp, by rw [this, hd]; rfl⟩
    unfold nalType Frame.byte; rw [this, hd]; rfl

theorem parse_aud (e : Exp) (f : Frame) (h : IsUnit f [9]) : parseNal e f = .ok { e with newFrame := true } := by
  obtain ⟨-, b, p, h1, h2⟩ := h
  obtain ⟨a1, a2, a3, -, -⟩ := unit_facts f b p h1
  simp only [List.mem_singleton] at h2
  unfold parseNal
  rw [if_neg a1, if_neg a2, if_pos (by rw [a3, h2])]

theorem parse_unit (e : Exp) (f : Frame) (h : IsUnit f [1, 5, 6, 7, 8]) :
    parseNal e f = .ok { e with newFrame := false, data := e.data ++ ([0, 0, 0, 1] ++ (strip f.data).getD []), stored := true } := by
  obtain ⟨-, b, p, h1, h2⟩ := h
  obtain ⟨a1, a2, a3, a4, a5⟩ := unit_facts f b p h1
  simp only [List.mem_cons, List.not_mem_nil, or_false] at h2
  unfold parseNal
  rw [if_neg a1, if_neg a2, if_neg (by rw [a3]; omega), if_pos (by rw [a3]; exact h2), if_neg (by omega), a5, h1]
  simp

theorem feed_rest (l : List (Frame × Bool)) : ∀ e : Exp, e.newFrame = false → (∀ u ∈ l, IsUnit u.1 [1, 5, 6, 7, 8]) →
    e.stored = true → feed e l = .ok ([], { e with data := e.data ++ annexB l }) := by
  induction l with
  | nil => intro e _ _ _; simp [feed, annexB]
  | cons u l ih =>
    intro e h1 h2 h3
    obtain ⟨f, wr⟩ := u
    have hu := h2 (f, wr) (by simp)
    rw [feed]
    unfold process
    rw [if_pos hu.1, if_neg (by rw [h1]; simp), parse_unit e f hu, Outcome.bind_ok, Outcome.bind_ok]
    rw [ih _ rfl (fun u hu => h2 u (List.mem_cons_of_mem _ hu)) rfl]
    simp only [Outcome.bind_ok, Option.toList, List.nil_append]
    simp only [annexB, List.flatMap_cons, List.append_assoc, h1, h3]

/-- One picture. -/
theorem feed_pic (e : Exp) (p : Pic) (hp : p.Ok) (h1 : e.newFrame = false) (h2 : e.stored = false → e.data = [])
    (h3 : 24 + e.data.length ≤ 6220824) (h4 : p.first.1.seq ≠ e.seq ∨ e.data = [] ∧ e.stored = false ∧ p.first.1.seq % 65536 = e.seq) :
    feed e p.frames = .ok (if e.stored ∧ p.first.2 then [⟨p.first.1, e.data⟩] else [],
      ⟨false, annexB (p.first :: p.rest), true, p.first.1.seq % 65536⟩) := by
  obtain ⟨aud, first, rest⟩ := p
  obtain ⟨fa, wa⟩ := aud
  obtain ⟨ff, wf⟩ := first
  have ha := hp.aud
  have hf := hp.units (ff, wf) (by simp)
  have hr : ∀ u ∈ rest, IsUnit u.1 [1, 5, 6, 7, 8] := fun u hu => hp.units u (List.mem_cons_of_mem _ hu)
  simp only at ha hf h4 ⊢
  unfold Pic.frames
  rw [feed]
  have pa : process e fa wa = .ok ([], none, { e with newFrame := true }) := by
    unfold process
    rw [if_pos ha.1, if_neg (by rw [h1]; simp), parse_aud e fa ha, Outcome.bind_ok]
  rw [pa, Outcome.bind_ok, feed]
  have pf : ∃ ws, process { e with newFrame := true } ff wf = .ok (ws, if e.stored ∧ wf then some ⟨ff, e.data⟩ else none,
      ⟨false, [0, 0, 0, 1] ++ (strip ff.data).getD [], true, ff.seq % 65536⟩) := by
    unfold process
    rw [if_pos hf.1]
    by_cases hs : ff.seq ≠ e.seq
    · rw [if_pos ⟨hs, rfl⟩, parse_unit _ ff hf, Outcome.bind_ok]
      simp only [List.nil_append]
      cases wf with
      | false => rw [if_pos rfl]; exact ⟨_, by simp; rfl⟩
      | true =>
        rw [if_neg (by simp)]
        cases hst : e.stored with
        | false => rw [if_pos ⟨h2 hst, rfl⟩]; exact ⟨_, by simp; rfl⟩
        | true =>
          rw [if_neg (by simp)]
          rw [if_neg (by simp only [HEADER, SHMSIZE]; omega)]
          exact ⟨_, by simp; rfl⟩
    · rcases h4 with h4 | ⟨h4, h5, h6⟩
      · exact absurd h4 hs
      · rw [if_neg (fun hh => hs hh.1), parse_unit _ ff hf, Outcome.bind_ok]
        refine ⟨[], ?_⟩
        simp only [h4, h5, h6, List.nil_append]
        simp
  obtain ⟨ws, pf⟩ := pf
  simp only
  rw [pf, Outcome.bind_ok, feed_rest rest _ rfl hr rfl]
  simp only [Outcome.bind_ok, Option.toList, List.nil_append, List.append_nil]
  have hab : annexB ((ff, wf) :: rest) = [0, 0, 0, 1] ++ (strip ff.data).getD [] ++ annexB rest := by
    simp [annexB]
  rw [hab]
  by_cases hc : e.stored = true ∧ wf = true
  · rw [if_pos hc, if_pos hc]
  · rw [if_neg hc, if_neg hc]

theorem feed_pics (ps : List Pic) : ∀ (a : Pic) (e : Exp), Numbered (a :: ps) → (∀ p ∈ ps, p.Ok) →
    (∀ p ∈ a :: ps, 24 + (annexB (p.first :: p.rest)).length ≤ 6220824) →
    e = ⟨false, annexB (a.first :: a.rest), true, a.first.1.seq % 65536⟩ →
    ∃ e', feed e (ps.flatMap Pic.frames) = .ok (expected (a :: ps), e') := by
  induction ps with
  | nil => intro a e _ _ _ _; exact ⟨e, rfl⟩
  | cons b ps ih =>
    intro a e hn hok hl he
    rw [List.flatMap_cons, feed_append]
    have h1 : e.newFrame = false := by rw [he]
    have h2 : e.stored = true := by rw [he]
    have h3 : e.data = annexB (a.first :: a.rest) := by rw [he]
    have h4 : e.seq = a.first.1.seq % 65536 := by rw [he]
    have := feed_pic e b (hok b (by simp)) h1 (by rw [h2]; simp) (by rw [h3]; exact hl a (by simp)) (Or.inl (by rw [h4]; exact hn.1))
    rw [this, Outcome.bind_ok]
    obtain ⟨e', h'⟩ := ih b _ hn.2 (fun p hp => hok p (List.mem_cons_of_mem _ hp)) (fun p hp => hl p (List.mem_cons_of_mem _ hp)) rfl
    simp only [h', Outcome.bind_ok]
    refine ⟨e', ?_⟩
    rw [expected, h2, h3]
    simp

/-- **C36, coded pictures.** From its creation, fed any stream of delimited pictures, the exporter offers each picture - its units
complete, in order, behind four byte start codes - when the next one begins, if the peer has handed the area back by then. -/
theorem pictures_offered (ps : List Pic) (hok : ∀ p ∈ ps, p.Ok) (hn : Numbered ps)
    (hl : ∀ p ∈ ps, 24 + (annexB (p.first :: p.rest)).length ≤ 6220824) :
    ∃ e', feed Exp.init (ps.flatMap Pic.frames) = .ok (expected ps, e') := by
  cases ps with
  | nil => exact ⟨_, rfl⟩
  | cons a ps =>
    rw [List.flatMap_cons, feed_append]
    have h4 : a.first.1.seq ≠ Exp.init.seq ∨ Exp.init.data = [] ∧ Exp.init.stored = false ∧ a.first.1.seq % 65536 = Exp.init.seq := by
      show a.first.1.seq ≠ 1 ∨ _ ∧ _ ∧ a.first.1.seq % 65536 = 1
      by_cases h : a.first.1.seq = 1
      · right; exact ⟨rfl, rfl, by rw [h]⟩
      · exact Or.inl h
    rw [feed_pic Exp.init a (hok a (by simp)) rfl (fun _ => rfl) (by decide) h4, Outcome.bind_ok]
    obtain ⟨e', h'⟩ := feed_pics ps a _ hn (fun p hp => hok p (List.mem_cons_of_mem _ hp)) hl rfl
    simp only [h', Outcome.bind_ok]
    exact ⟨e', by simp [Exp.init]⟩

/-- **C36, raw pictures.** A raw picture that fits is offered whole with its own header exactly when the peer has handed the area
back. -/
theorem raw_offered (e : Exp) (f : Frame) (wr : Bool) (hc : f.codec = some .raw) (hl : 24 + f.data.length ≤ 6220824) :
    ∃ ws, process e f wr = .ok (ws, if wr then some ⟨f, f.data⟩ else none, e) := by
  unfold process
  rw [if_neg (by rw [hc]; simp), if_pos hc]
  cases wr with
  | false => rw [if_pos rfl]; exact ⟨_, rfl⟩
  | true => rw [if_neg (by simp), if_neg (by simp only [HEADER, SHMSIZE]; omega)]; exact ⟨_, rfl⟩

/-! ## Recorded exceptions -/

/-- A raw picture larger than the area is written beyond its end. -/
theorem raw_oversize (e : Exp) (f : Frame) (hc : f.codec = some .raw) (hl : 6220824 < 24 + f.data.length) : process e f true = .ub := by
  unfold process
  rw [if_neg (by rw [hc]; simp), if_pos hc, if_neg (by simp), if_pos (by simp only [HEADER, SHMSIZE]; omega)]

/-- A coded stream without delimiters is never offered. -/
theorem no_delimiter_no_offer (l : List (Frame × Bool)) : ∀ (e e' : Exp) (os : List Offer), e.newFrame = false →
    (∀ u ∈ l, IsUnit u.1 [1, 5, 6, 7, 8]) → feed e l = .ok (os, e') → os = [] := by
  induction l with
  | nil => intro e e' os _ _ h; simp only [feed, Outcome.ok.injEq, Prod.mk.injEq] at h; exact h.1.symm
  | cons u l ih =>
    intro e e' os h1 h2 h
    obtain ⟨f, wr⟩ := u
    have hu := h2 (f, wr) (by simp)
    rw [feed] at h
    have : process e f wr = .ok ([], none, { e with newFrame := false, data := e.data ++ ([0, 0, 0, 1] ++ (strip f.data).getD []), stored := true }) := by
      unfold process
      rw [if_pos hu.1, if_neg (by rw [h1]; simp), parse_unit e f hu, Outcome.bind_ok]
    rw [this, Outcome.bind_ok] at h
    simp only at h
    cases hf : feed { e with newFrame := false, data := e.data ++ ([0, 0, 0, 1] ++ (strip f.data).getD []), stored := true } l with
    | ub => rw [hf] at h; exact absurd h (by simp [Outcome.bind])
    | hang => rw [hf] at h; exact absurd h (by simp [Outcome.bind])
    | ok r =>
      rw [hf, Outcome.bind_ok] at h
      simp only [Outcome.ok.injEq, Prod.mk.injEq] at h
      rw [← h.1, ih _ _ _ rfl (fun u hu => h2 u (List.mem_cons_of_mem _ hu)) hf]
      rfl

/-- A unit of another type is dropped without trace. -/
theorem other_unit_lost (e : Exp) (f : Frame) (b : UInt8) (p : Bytes) (h : strip f.data = some (b :: p))
    (ht : b.toNat % 32 ∉ [1, 5, 6, 7, 8, 9]) : parseNal e f = .ok e := by
  obtain ⟨a1, a2, a3, -, -⟩ := unit_facts f b p h
  simp only [List.mem_cons, List.not_mem_nil, or_false, not_or] at ht
  unfold parseNal
  rw [if_neg a1, if_neg a2, if_neg (by rw [a3]; omega), if_neg (by rw [a3]; omega)]

/-! ## Cases -/

def nal (seq : Nat) (pts : Int) (d : Bytes) : Frame := ⟨some .h264, some .yuv420p, seq, pts, 640, 480, d, fun _ => 0⟩
def rawFrame (seq : Nat) (d : Bytes) : Frame := ⟨some .raw, some .rgb24, seq, 2500000, 640, 480, d, fun _ => 0⟩

def twoPics : List Pic :=
  [⟨(nal 5 100 [0, 0, 0, 1, 9, 16], true), (nal 5 100 [0, 0, 1, 0x67, 1], true), [(nal 5 100 [0, 0, 0, 1, 0x65, 2, 3], true)]⟩,
   ⟨(nal 6 200 [0, 0, 0, 1, 9, 16], true), (nal 6 200 [0, 0, 0, 1, 0x41, 4], true), []⟩]

example : (∀ p ∈ twoPics, p.Ok) ∧ Numbered twoPics ∧ (∀ p ∈ twoPics, 24 + (annexB (p.first :: p.rest)).length ≤ 6220824) := by
  have au : ∀ f : Frame, f.codec = some .h264 → strip f.data = some [9, 16] → IsUnit f [9] := fun f h h' => ⟨h, 9, [16], h', by decide⟩
  refine ⟨?_, ⟨by decide, trivial⟩, by decide⟩
  intro p hp
  simp only [twoPics, List.mem_cons, List.not_mem_nil, or_false] at hp
  rcases hp with rfl | rfl
  · refine ⟨au _ rfl rfl, ?_⟩
    intro u hu
    simp only [List.mem_cons, List.not_mem_nil, or_false] at hu
    rcases hu with rfl | rfl
    · exact ⟨rfl, 0x67, [1], rfl, by decide⟩
    · exact ⟨rfl, 0x65, [2, 3], rfl, by decide⟩
  · refine ⟨au _ rfl rfl, ?_⟩
    intro u hu
    simp only [List.mem_cons, List.not_mem_nil, or_false] at hu
    rcases hu with rfl
    exact ⟨rfl, 0x41, [4], rfl, by decide⟩

/-- The first picture is shown under the number and time of the second. -/
theorem header_is_next_picture : (expected twoPics).map (fun o => (o.frame.seq, o.frame.pts, o.data)) =
    [(6, 200, [0, 0, 0, 1, 0x67, 1, 0, 0, 0, 1, 0x65, 2, 3])] := by decide

/-- A run in which the peer takes a raw picture: 28 bytes are written, the peer looks, reads three bytes and hands back. -/
example :
    (match run Sys.init ([.arrive (rawFrame 7 [1, 2, 3, 4])] ++ List.replicate 28 .write ++
      [.look, .read 2, .read 24, .read 27, .release]) with
    | .ok s => s.taken
    | _ => []) = [[(2, 7), (24, 1), (27, 4)]] := by decide +kernel

/-- **C36.** What does not begin with a start code is passed over. -/
theorem parse_other (e : Exp) (f : Frame) (h : 4 ≤ f.data.length) (hn : strip f.data = none) : parseNal e f = .ok e := by
  have : startCode f = 0 := by
    unfold startCode Frame.byte
    match hd : f.data, h with
    | a :: b :: c :: d :: r, _ =>
      rw [hd] at hn
      by_cases h1 : a = 0 ∧ b = 0 ∧ c = 1
      · obtain ⟨rfl, rfl, rfl⟩ := h1; exact absurd hn (by simp [strip])
      · by_cases h2 : a = 0 ∧ b = 0 ∧ c = 0 ∧ d = 1
        · obtain ⟨rfl, rfl, rfl, rfl⟩ := h2; exact absurd hn (by simp [strip])
        · simp only [List.getElem?_cons_zero, List.getElem?_cons_succ, Option.getD_some]
          first
          | rw [if_neg h1, if_neg h2]
          | simp [h1, h2]
  unfold parseNal
  rw [if_pos this]

end Lms.SharedMem
