import Verif.Relay.Model

/-!
# C83: a received stream is sent on unchanged
-/

namespace Lms.Relay
open Lms.FrameQueue
open Lms.Sources (Kind Src Act Answer History answers Spaced Valid content Right)

/-! ## Specification -/

/-- What of a frame counts for the packetiser: without the start code in front for H.264 and H.265. -/
def payload : Kind → Bytes → Bytes
  | .plain, d => d
  | .h26x, 0 :: 0 :: 1 :: d => d
  | .h26x, 0 :: 0 :: 0 :: 1 :: d => d
  | .h26x, d => d

/-- The packetiser, which asked for at least `R` bytes, was given what came from the network as `p`, as far as the frames of the
queue and its own buffer have room; it was told how much it misses, and the time. -/
def SentOn (k : Kind) (size R : Nat) (p : Recv.Pkt) (a : Answer) : Prop :=
  (∃ room, R ≤ room ∧ a.bytes = (payload k (p.data.take size)).take room) ∧
    a.bytes.length + a.truncated = (payload k (p.data.take size)).length ∧ a.sec * 1000000 + a.usec = 1000000 * p.sec + p.usec

/-- What was taken from the network in a history, and what the packetiser was given. -/
def fromNet (outs : List (List Recv.Pkt × History)) : List Recv.Pkt := outs.flatMap (·.1)
def given (outs : List (List Recv.Pkt × History)) : List Answer := outs.flatMap fun o => answers o.2

/-- The packetiser keeps running and asks for at least `R` bytes. -/
def Asks (R : Nat) (a : Act) : Prop := match a with | .ask room => R ≤ room | .trigger => True | .stop => False

/-- Every step of a round. -/
def OpAsks (R : Nat) : Op → Prop
  | .receive _ => True
  | .transmit sched => ∀ l ∈ sched, ∀ a ∈ l, Asks R a

/-- The source between two rounds: without a frame, the packetiser running. -/
structure Idle (R : Nat) (s : Src) : Prop where
  frame : s.frame = none
  processed : s.processed = false
  stop : s.stop = false
  room : ∀ r, s.waiting = some r → R ≤ r

/-! ## One frame at the source -/

theorem content_payload (k : Kind) (f : Sources.Frame) : content k f = payload k (f.buf.take f.len) := by
  cases k with
  | plain => rfl
  | h26x =>
    unfold content
    simp only
    generalize f.buf.take f.len = d
    match d with
    | [] => rfl
    | [a] => simp [payload]
    | [a, b] => simp [payload]
    | [a, b, c] =>
      by_cases h : a = 0 ∧ b = 0 ∧ c = 1
      · obtain ⟨rfl, rfl, rfl⟩ := h; simp [payload]
      · rw [if_neg (by intro e; simp at e; exact h e), if_neg (by simp)]
        rw [payload.eq_4 _ (by intro d e; simp at e; exact h ⟨e.1, e.2.1, e.2.2.1⟩) (by intro d e; simp at e)]
    | a :: b :: c :: e :: r =>
      by_cases h : a = 0 ∧ b = 0 ∧ c = 1
      · obtain ⟨rfl, rfl, rfl⟩ := h; simp [payload]
      · rw [if_neg (by intro e; simp at e; exact h e)]
        by_cases g : a = 0 ∧ b = 0 ∧ c = 0 ∧ e = 1
        · obtain ⟨rfl, rfl, rfl, rfl⟩ := g; simp [payload]
        · rw [if_neg (by intro e; simp at e; exact g e)]
          rw [payload.eq_4 _ (by intro d e; simp at e; exact h ⟨e.1, e.2.1, e.2.2.1⟩)
            (by intro d e; simp at e; exact g ⟨e.1, e.2.1, e.2.2.1, e.2.2.2.1⟩)]

theorem answers_nil : answers [] = [] := rfl

theorem answers_append (a b : History) : answers (a ++ b) = answers a ++ answers b := List.filterMap_append

theorem answers_cons (op : Sources.Op) (o : Sources.Out) (h : History) : answers ((op, o) :: h) = answers [(op, o)] ++ answers h := by
  rw [← answers_append]; rfl

/-- The frame is held and not answered. -/
structure Fresh (R : Nat) (f : Sources.Frame) (s : Src) : Prop where
  frame : s.frame = some f
  processed : s.processed = false
  stop : s.stop = false
  room : ∀ r, s.waiting = some r → R ≤ r

/-- The frame is held and answered. -/
structure Done (k : Kind) (R : Nat) (f : Sources.Frame) (s : Src) : Prop where
  frame : s.frame = some f
  processed : s.processed = true
  stop : s.stop = false
  room : ∀ r, s.waiting = some r → R ≤ r ∧ k = .plain

theorem ask_fine {k : Kind} {s : Src} {a : Act} {x} (h : Sources.step k s a.op = .ok x) : Sources.Fine k s a.op := by
  cases a with
  | ask room =>
    show s.waiting = none
    by_cases hw : s.waiting = none
    · exact hw
    · have : Sources.step k s (.ask room) = .ub := if_pos hw
      rw [show (Act.ask room).op = .ask room from rfl, this] at h
      cases h
  | trigger => trivial
  | stop => trivial

theorem op_stays (a : Act) : ∀ f, a.op ≠ .set f := by cases a <;> intro f h <;> cases h

/-- One action while the frame waits for its request. -/
theorem act_fresh {k : Kind} {R : Nat} {f : Sources.Frame} {s s' : Src} {a : Act} {o : Sources.Out} (hv : Valid k f) (h : Fresh R f s) (ha : Asks R a)
    (hs : Sources.step k s a.op = .ok (s', o)) :
    (Fresh R f s' ∧ answers [(a.op, o)] = [] ∧ ∀ x, o ≠ .answer (some x)) ∨
      ∃ x room, R ≤ room ∧ Right k f room x ∧ Done k R f s' ∧ o = .answer (some x) := by
  have hi : Sources.Inv k s := ⟨(by rw [h.processed]; intro e; cases e), by intro g hg; rw [h.frame] at hg; cases hg; exact hv⟩
  obtain ⟨s1, o1, e, -, hc⟩ := Sources.step_cases k s a.op hi (ask_fine hs)
  rw [hs] at e
  cases e
  cases a with
  | ask room =>
    simp only [Act.op, h.frame, h.processed, Bool.false_eq_true, and_false, if_false] at hc
    obtain ⟨x, hr, e1, e2⟩ := hc
    refine .inr ⟨x, room, ha, hr, ?_, e2⟩
    rw [e1]
    exact ⟨rfl, rfl, rfl, by intro r hr; cases hr⟩
  | trigger =>
    simp only [Act.op, h.frame] at hc
    cases hw : s.waiting with
    | none =>
      rw [hw] at hc
      obtain ⟨e1, e2⟩ := hc
      subst e1 e2
      exact .inl ⟨h, rfl, by intro x hx; cases hx⟩
    | some room =>
      simp only [hw, h.processed, Bool.false_eq_true, and_false, if_false] at hc
      obtain ⟨x, hr, e1, e2⟩ := hc
      refine .inr ⟨x, room, h.room room hw, hr, ?_, e2⟩
      rw [e1]
      exact ⟨rfl, rfl, h.stop, by intro r hr; cases hr⟩
  | stop => exact ha.elim

/-- One action after the answer, when nothing more is asked for. -/
theorem act_done {k : Kind} {R : Nat} {f : Sources.Frame} {s s' : Src} {a : Act} {o : Sources.Out} (hv : Valid k f) (h : Done k R f s) (ha : Asks R a)
    (hq : k = .plain ∨ ∀ r, a.op ≠ .ask r) (hs : Sources.step k s a.op = .ok (s', o)) :
    Done k R f s' ∧ answers [(a.op, o)] = [] ∧ ∀ x, o ≠ .answer (some x) := by
  have hi : Sources.Inv k s := ⟨by intro _; rw [h.frame]; simp, by intro g hg; rw [h.frame] at hg; cases hg; exact hv⟩
  obtain ⟨s1, o1, e, -, hc⟩ := Sources.step_cases k s a.op hi (ask_fine hs)
  rw [hs] at e
  cases e
  cases a with
  | ask room =>
    rcases hq with rfl | hq
    · simp only [Act.op, h.frame, h.processed, and_self, if_true] at hc
      obtain ⟨e1, e2⟩ := hc
      rw [e1, e2]
      exact ⟨⟨rfl, rfl, rfl, by intro r hr; cases hr; exact ⟨ha, rfl⟩⟩, rfl, by intro x hx; cases hx⟩
    · exact absurd rfl (hq room)
  | trigger =>
    have key : s' = s ∧ o = .answer none := by
      simp only [Act.op, h.frame] at hc
      cases hw : s.waiting with
      | none => rw [hw] at hc; exact hc
      | some room =>
        simp only [hw, h.processed, (h.room room hw).2, and_self, if_true] at hc
        exact hc
    obtain ⟨rfl, rfl⟩ := key
    exact ⟨h, rfl, by intro x hx; cases hx⟩
  | stop => exact ha.elim

/-- Has the frame been answered after this? -/
def flag (b : Bool) (o : Sources.Out) : Bool := match o with | .answer (some _) => true | .got true => false | _ => b

/-- The next thing is allowed. -/
theorem spaced_cons {b : Bool} {op : Sources.Op} {o : Sources.Out} {h : History} : Spaced b ((op, o) :: h) ↔
    (b = true → ∀ r, op ≠ .ask r) ∧ Spaced (flag b o) h := Iff.rfl

theorem flag_keep {b : Bool} {o : Sources.Out} (h : ∀ x, o ≠ .answer (some x)) (hg : ∀ x, o ≠ .got x) : flag b o = b := by
  cases o with
  | set x => rfl
  | answer x => cases x with
    | none => rfl
    | some y => exact absurd rfl (h y)
  | got x => exact absurd rfl (hg x)
  | none => rfl

theorem act_not_got {k : Kind} {s s' : Src} {a : Act} {o : Sources.Out} (hs : Sources.step k s a.op = .ok (s', o)) : ∀ x, o ≠ .got x := by
  intro x hx
  subst hx
  have hd : ∀ s : Src, (Sources.deliver k s).bind (fun r => Outcome.ok (r.1, Sources.Out.answer r.2)) ≠ .ok (s', .got x) := by
    intro s h
    cases hq : Sources.deliver k s with
    | ok y => rw [hq] at h; cases h
    | ub => rw [hq] at h; cases h
    | hang => rw [hq] at h; cases h
  cases a with
  | ask room =>
    simp only [Act.op, Sources.step] at hs
    split at hs
    · cases hs
    · split at hs
      · exact hd _ hs
      · cases hs
  | trigger => exact hd s hs
  | stop => cases hs

/-- A step of the library after the answer. -/
theorem single_done {k : Kind} {R : Nat} {f : Sources.Frame} (hv : Valid k f) : ∀ (l : List Act) (s s' : Src) (h : History) (tail : History), Done k R f s → (∀ a ∈ l, Asks R a) →
    single k s l = .ok (s', h) → (k = .plain ∨ Spaced true (h ++ tail)) → Done k R f s' ∧ answers h = [] ∧ (k = .plain ∨ Spaced true tail) := by
  intro l
  induction l with
  | nil => intro s s' h tail hd _ e hsp; cases e; exact ⟨hd, rfl, hsp⟩
  | cons a l ih =>
    intro s s' h tail hd ha e hsp
    rw [single] at e
    cases h1 : Sources.step k s a.op with
    | ub => rw [h1] at e; cases e
    | hang => rw [h1] at e; cases e
    | ok x =>
      rw [h1, Outcome.bind_ok] at e
      cases h2 : single k x.1 l with
      | ub => rw [h2] at e; cases e
      | hang => rw [h2] at e; cases e
      | ok y =>
        rw [h2] at e
        cases e
        have hq : k = .plain ∨ ∀ r, a.op ≠ .ask r := hsp.imp id fun x => (spaced_cons.1 x).1 rfl
        obtain ⟨e1, e2, e3⟩ := act_done (o := x.2) (s' := x.1) hv hd (ha a (by simp)) hq h1
        obtain ⟨g1, g2, g3⟩ := ih x.1 y.1 y.2 tail e1 (fun b hb => ha b (by simp [hb])) h2
          (hsp.imp id fun z => by have := (spaced_cons.1 z).2; rwa [flag_keep e3 (act_not_got h1)] at this)
        exact ⟨g1, by rw [answers_cons, e2, g2]; rfl, g3⟩

/-- A step of the library with a frame waiting for its request: it is answered once or not yet. -/
theorem single_fresh {k : Kind} {R : Nat} {f : Sources.Frame} (hv : Valid k f) : ∀ (l : List Act) (s s' : Src) (h : History) (tail : History), Fresh R f s → (∀ a ∈ l, Asks R a) →
    single k s l = .ok (s', h) → (k = .plain ∨ Spaced false (h ++ tail)) →
    (Fresh R f s' ∧ answers h = [] ∧ (k = .plain ∨ Spaced false tail)) ∨
      ∃ x room, R ≤ room ∧ Right k f room x ∧ Done k R f s' ∧ answers h = [x] ∧ (k = .plain ∨ Spaced true tail) := by
  intro l
  induction l with
  | nil => intro s s' h tail hd _ e hsp; cases e; exact .inl ⟨hd, rfl, hsp⟩
  | cons a l ih =>
    intro s s' h tail hd ha e hsp
    rw [single] at e
    cases h1 : Sources.step k s a.op with
    | ub => rw [h1] at e; cases e
    | hang => rw [h1] at e; cases e
    | ok x =>
      rw [h1, Outcome.bind_ok] at e
      cases h2 : single k x.1 l with
      | ub => rw [h2] at e; cases e
      | hang => rw [h2] at e; cases e
      | ok y =>
        rw [h2] at e
        cases e
        rcases act_fresh (o := x.2) (s' := x.1) hv hd (ha a (by simp)) h1 with ⟨e1, e2, e3⟩ | ⟨z, room, e1, e2, e3, e4⟩
        · have hsp' : k = .plain ∨ Spaced false (y.2 ++ tail) :=
            hsp.imp id fun z => by have := (spaced_cons.1 z).2; rwa [flag_keep e3 (act_not_got h1)] at this
          rcases ih x.1 y.1 y.2 tail e1 (fun b hb => ha b (by simp [hb])) h2 hsp' with ⟨g1, g2, g3⟩ | ⟨z, room, g1, g2, g3, g4, g5⟩
          · exact .inl ⟨g1, by rw [answers_cons, e2, g2]; rfl, g3⟩
          · exact .inr ⟨z, room, g1, g2, g3, by rw [answers_cons, e2, g4]; rfl, g5⟩
        · have hsp' : k = .plain ∨ Spaced true (y.2 ++ tail) :=
            hsp.imp id fun z => by have := (spaced_cons.1 z).2; rw [e4] at this; exact this
          obtain ⟨g1, g2, g3⟩ := single_done hv l x.1 y.1 y.2 tail e3 (fun b hb => ha b (by simp [hb])) h2 hsp'
          refine .inr ⟨z, room, e1, e2, g1, ?_, g3⟩
          rw [answers_cons, e4, g2]
          rfl

/-- A step of the library without a frame. -/
theorem single_idle {k : Kind} {R : Nat} : ∀ (l : List Act) (s s' : Src) (h : History) (tail : History), Idle R s → (∀ a ∈ l, Asks R a) →
    single k s l = .ok (s', h) → (k = .plain ∨ Spaced false (h ++ tail)) → Idle R s' ∧ answers h = [] ∧ (k = .plain ∨ Spaced false tail) := by
  intro l
  induction l with
  | nil => intro s s' h tail hd _ e hsp; cases e; exact ⟨hd, rfl, hsp⟩
  | cons a l ih =>
    intro s s' h tail hd ha e hsp
    rw [single] at e
    cases h1 : Sources.step k s a.op with
    | ub => rw [h1] at e; cases e
    | hang => rw [h1] at e; cases e
    | ok x =>
      rw [h1, Outcome.bind_ok] at e
      cases h2 : single k x.1 l with
      | ub => rw [h2] at e; cases e
      | hang => rw [h2] at e; cases e
      | ok y =>
        rw [h2] at e
        cases e
        have hi : Sources.Inv k s := ⟨(by rw [hd.processed]; intro e; cases e), by intro g hg; rw [hd.frame] at hg; cases hg⟩
        have key : Idle R x.1 ∧ x.2 = .answer none := by
          obtain ⟨s1, o1, e, -, hc⟩ := Sources.step_cases k s a.op hi (ask_fine h1)
          rw [h1] at e
          cases e
          cases a with
          | ask room =>
            simp only [Act.op, hd.frame] at hc
            obtain ⟨q1, q2⟩ := hc
            refine ⟨?_, q2⟩
            rw [q1]
            exact ⟨rfl, hd.processed, rfl, by intro r hr; cases hr; exact ha _ List.mem_cons_self⟩
          | trigger =>
            simp only [Act.op, hd.frame] at hc
            obtain ⟨q1, q2⟩ := hc
            exact ⟨q1 ▸ hd, q2⟩
          | stop => exact (ha _ List.mem_cons_self).elim
        obtain ⟨k1, k2⟩ := key
        obtain ⟨g1, g2, g3⟩ := ih x.1 y.1 y.2 tail k1 (fun b hb => ha b (by simp [hb])) h2
          (hsp.imp id fun z => by have := (spaced_cons.1 z).2; rw [k2] at this; exact this)
        exact ⟨g1, by rw [answers_cons, k2, g2]; rfl, g3⟩

theorem got_fresh {k : Kind} {R : Nat} {f : Sources.Frame} {s : Src} (h : Fresh R f s) : Sources.step k s .got = .ok (s, .got false) := by
  show (if s.processed = true ∨ s.stop = true then _ else _) = _
  rw [if_neg (by rw [h.processed, h.stop]; simp)]

theorem got_done {k : Kind} {R : Nat} {f : Sources.Frame} {s : Src} (h : Done k R f s) :
    Sources.step k s .got = .ok ({ s with processed := false, frame := none }, .got true) := by
  show (if s.processed = true ∨ s.stop = true then (if s.frame ≠ none then _ else _) else _) = _
  rw [if_pos (.inl h.processed), if_pos (by rw [h.frame]; simp)]

/-- The round ends when the frame has been answered, once. -/
theorem serve_one {k : Kind} {R : Nat} {f : Sources.Frame} (hv : Valid k f) : ∀ (sched : List (List Act)) (s s' : Src) (h : History) (tail : History), Fresh R f s →
    (∀ l ∈ sched, ∀ a ∈ l, Asks R a) → serve k sched s = .ok (s', h) → (k = .plain ∨ Spaced false (h ++ tail)) →
    Idle R s' ∧ ∃ x room, R ≤ room ∧ Right k f room x ∧ answers h = [x] ∧ (k = .plain ∨ Spaced false tail) := by
  intro sched
  induction sched with
  | nil => intro s s' h tail _ _ e; cases e
  | cons a l ih =>
    intro s s' h tail hf ha e hsp
    rw [serve] at e
    cases h1 : single k s a with
    | ub => rw [h1] at e; cases e
    | hang => rw [h1] at e; cases e
    | ok x =>
      rw [h1, Outcome.bind_ok] at e
      have hgot : ∀ y, Sources.step k x.1 .got = .ok y → ∃ t, h ++ tail = x.2 ++ ((.got, y.2) :: t) := by
        intro y hy
        rw [hy, Outcome.bind_ok] at e
        split at e
        · cases e; exact ⟨tail, by simp⟩
        · cases h3 : serve k l y.1 with
          | ub => rw [h3] at e; cases e
          | hang => rw [h3] at e; cases e
          | ok z => rw [h3] at e; cases e; exact ⟨z.2 ++ tail, by simp⟩
      have main : ∀ y t, Sources.step k x.1 .got = .ok y → h ++ tail = x.2 ++ ((.got, y.2) :: t) → Idle R s' ∧ ∃ x room, R ≤ room ∧ Right k f room x ∧ answers h = [x] ∧ (k = .plain ∨ Spaced false tail) := by
        intro y t hy ht
        rw [ht] at hsp
        rcases single_fresh hv a s x.1 x.2 _ hf (ha a (by simp)) h1 hsp with ⟨g1, g2, g3⟩ | ⟨z, room, g1, g2, g3, g4, g5⟩
        · rw [got_fresh g1] at hy
          cases hy
          rw [got_fresh g1, Outcome.bind_ok] at e
          simp only [Sources.Out.got.injEq, Bool.false_eq_true, if_false] at e
          cases h3 : serve k l x.1 with
          | ub => rw [h3] at e; cases e
          | hang => rw [h3] at e; cases e
          | ok z =>
            rw [h3] at e
            cases e
            have ht' : t = z.2 ++ tail := by
              simp only [List.append_assoc, List.cons_append] at ht
              have := List.append_cancel_left ht
              cases this; rfl
            subst ht'
            obtain ⟨q1, w, room, q2, q3, q4, q5⟩ := ih x.1 z.1 z.2 tail g1 (fun b hb => ha b (by simp [hb])) h3 (g3.imp id fun z => (spaced_cons (b := false) (op := .got) (o := .got false)).1 z |>.2)
            refine ⟨q1, w, room, q2, q3, ?_, q5⟩
            rw [answers_append, g2, answers_cons, q4]
            rfl
        · rw [got_done g3] at hy
          cases hy
          rw [got_done g3, Outcome.bind_ok, if_pos rfl] at e
          cases e
          have ht' : t = tail := by
            simp only [List.append_assoc, List.cons_append, List.nil_append] at ht
            have := List.append_cancel_left ht
            cases this; rfl
          subst ht'
          refine ⟨⟨rfl, rfl, g3.stop, fun r hr => (g3.room r hr).1⟩, z, room, g1, g2, ?_, g5.imp id fun z => ((spaced_cons (b := true) (op := .got) (o := .got true)).1 z).2⟩
          rw [answers_append, g4]
          rfl
      cases h2 : Sources.step k x.1 .got with
      | ub => rw [h2] at e; cases e
      | hang => rw [h2] at e; cases e
      | ok y =>
        obtain ⟨t, ht⟩ := hgot y h2
        exact main y t h2 ht

/-! ## The chain -/

/-- The units this is about: of H.264 and H.265 streams, long enough that a start code can be looked for. -/
def Fits (k : Kind) (size : Nat) (p : Recv.Pkt) : Prop := k = .h26x → 4 ≤ p.data.length ∧ 4 ≤ size

theorem exact_sent {k : Kind} {size R room : Nat} {p : Recv.Pkt} {c : Recv.Content} {a : Answer} (h : Recv.Exact size p c) (hR : R ≤ room)
    (hr : Right k (toFrame c) room a) : SentOn k size R p a := by
  obtain ⟨h1, h2, h3, h4⟩ := h
  have hc : content k (toFrame c) = payload k (p.data.take size) := by
    rw [content_payload]
    show payload k (c.buf.take c.len) = _
    rw [h3]
  refine ⟨⟨room, hR, by rw [← hc]; exact hr.bytes⟩, by rw [← hc]; exact hr.size, ?_⟩
  rw [hr.time]; exact h4

theorem exact_valid {k : Kind} {size : Nat} {p : Recv.Pkt} {c : Recv.Content} (h : Recv.Exact size p c) (hf : Fits k size p) : Valid k (toFrame c) := by
  obtain ⟨h1, h2, -, -⟩ := h
  refine ⟨h2, fun hk => ?_⟩
  obtain ⟨f1, f2⟩ := hf hk
  show 4 ≤ c.len
  omega

theorem transmit_none {k : Kind} {R : Nat} {sched : List (List Act)} {s s' : Src} {h tail : History} (hi : Idle R s) (ha : ∀ l ∈ sched, ∀ a ∈ l, Asks R a)
    (e : transmit k none sched s = .ok (s', h)) (hsp : k = .plain ∨ Spaced false (h ++ tail)) :
    Idle R s' ∧ answers h = [] ∧ (k = .plain ∨ Spaced false tail) := by
  cases sched with
  | nil => cases e
  | cons a l => exact single_idle a s s' h tail hi (ha a (by simp)) e hsp

theorem transmit_some {k : Kind} {R : Nat} {f : Sources.Frame} (hv : Valid k f) {sched : List (List Act)} {s s' : Src} {h tail : History} (hi : Idle R s)
    (ha : ∀ l ∈ sched, ∀ a ∈ l, Asks R a) (e : transmit k (some f) sched s = .ok (s', h)) (hsp : k = .plain ∨ Spaced false (h ++ tail)) :
    Idle R s' ∧ ∃ x room, R ≤ room ∧ Right k f room x ∧ answers h = [x] ∧ (k = .plain ∨ Spaced false tail) := by
  have hset : Sources.step k s (.set f) = .ok ({ s with frame := some f }, .set true) := if_pos hi.frame
  unfold transmit at e
  simp only at e
  rw [hset, Outcome.bind_ok, if_pos rfl] at e
  cases h1 : serve k sched { s with frame := some f } with
  | ub => rw [h1] at e; cases e
  | hang => rw [h1] at e; cases e
  | ok z =>
    rw [h1] at e
    cases e
    obtain ⟨q1, w, room, q2, q3, q4, q5⟩ := serve_one hv sched { s with frame := some f } z.1 z.2 tail ⟨rfl, hi.processed, hi.stop, hi.room⟩ ha h1
      (hsp.imp id fun y => ((spaced_cons (b := false) (op := .set f) (o := .set true)).1 y).2)
    exact ⟨q1, w, room, q2, q3, by rw [answers_cons, q4]; rfl, q5⟩

/-- A forced write in the queue's own terms: the newest frame gives way when the queue is full. -/
theorem room_pending {size : Nat} {ps : List Recv.Pkt} {q : Spec Recv.Content} (h : List.Forall₂ (Recv.Exact size) ps q.q) (hc : 1 ≤ q.cap) :
    ∃ ps', ps'.Sublist ps ∧ List.Forall₂ (Recv.Exact size) ps' q.makeRoom.q ∧ ps'.length + q.makeRoom.lost = ps.length + q.lost := by
  unfold Spec.makeRoom
  by_cases hl : q.q.length < q.cap
  · rw [if_pos hl]; exact ⟨ps, List.Sublist.refl _, h, rfl⟩
  · rw [if_neg hl]
    have hlen := h.length_eq
    refine ⟨ps.dropLast, List.dropLast_sublist _, ?_, ?_⟩
    · show List.Forall₂ _ ps.dropLast q.q.dropLast
      rw [List.dropLast_eq_take, List.dropLast_eq_take, hlen]
      exact List.forall₂_take _ h
    · show ps.dropLast.length + (q.lost + 1) = _
      rw [List.length_dropLast]; omega

/-- **C83.** Whatever rounds the two filters make in whatever order: what the packetiser has been given are units that came from the
network, in order and none twice, each with its bytes and its time; what is neither given nor still in the queue is exactly as many
units as the queue counted as lost. -/
theorem sent_on {k : Kind} {size R : Nat} : ∀ (ops : List Op) {s t : St} {r : Ring Recv.Content} {q : Spec Recv.Content} {ps : List Recv.Pkt}
    {outs : List (List Recv.Pkt × History)}, Recv.Steady size r s.recv → FrameQueue.Rel r q → List.Forall₂ (Recv.Exact size) ps q.q → Idle R s.src →
    (∀ op ∈ ops, OpAsks R op) → (∀ p ∈ ps ++ fromNet outs, Fits k size p) → runOps (step k) s ops = .ok (t, outs) →
    (k = .plain ∨ Spaced false (outs.flatMap (·.2))) →
    ∃ done todo r' q', (done ++ todo).Sublist (ps ++ fromNet outs) ∧ (done ++ todo).length + q'.lost = (ps ++ fromNet outs).length + q.lost ∧
      List.Forall₂ (SentOn k size R) done (given outs) ∧ List.Forall₂ (Recv.Exact size) todo q'.q ∧ FrameQueue.Rel r' q' ∧ Recv.Steady size r' t.recv ∧
      Idle R t.src := by
  intro ops
  induction ops with
  | nil =>
    intro s t r q ps outs hs hrel hps hi _ _ e _
    cases e
    exact ⟨[], ps, r, q, by simp [fromNet], by simp [fromNet], .nil, hps, hrel, hs, hi⟩
  | cons op ops ih =>
    intro s t r q ps outs hs hrel hps hi hops hfit e hsp
    rw [runOps] at e
    cases h1 : step k s op with
    | ub => rw [h1] at e; cases e
    | hang => rw [h1] at e; cases e
    | ok x =>
      rw [h1, Outcome.bind_ok] at e
      obtain ⟨x1, x2⟩ := x
      simp only at e
      cases h2 : runOps (step k) x1 ops with
      | ub => rw [h2] at e; cases e
      | hang => rw [h2] at e; cases e
      | ok y =>
        rw [h2] at e
        cases e
        have hops' : ∀ op ∈ ops, OpAsks R op := fun o ho => hops o (List.mem_cons_of_mem _ ho)
        cases op with
        | receive l =>
          obtain ⟨u, got, r', e1, e2, e3⟩ := Recv.round_receives hs l
          rw [step, e1] at h1
          cases h1
          have hcap : 1 ≤ q.cap := by have := hrel.hcap; have := hrel.hmax; omega
          obtain ⟨ps', b1, b2, b3⟩ := room_pending hps hcap
          have hsp' : k = .plain ∨ Spaced false (y.2.flatMap (·.2)) := by simpa using hsp
          rcases e3 with ⟨rfl, i, hi'⟩ | ⟨p, c, rfl, hex, hput⟩
          · obtain ⟨r2, g1, g2, -⟩ := hrel.writerSlot_true
            rw [hi'] at g1
            cases g1
            obtain ⟨d, todo, rf, qf, a1, a2, a3, a4, a5, a6, a7⟩ := ih (s := ⟨u, s.src⟩) (t := y.1) (outs := y.2) e2 g2 b2 hi hops'
              (by intro p hp; exact hfit p (by
                rcases List.mem_append.1 hp with hp | hp
                · exact List.mem_append_left _ (b1.subset hp)
                · exact List.mem_append_right _ (by simpa [fromNet] using hp))) h2 hsp'
            refine ⟨d, todo, rf, qf, ?_, ?_, by simpa [given, answers] using a3, a4, a5, a6, a7⟩
            · have : fromNet (([], []) :: y.2) = fromNet y.2 := by simp [fromNet]
              rw [this]
              exact a1.trans (b1.append_right _)
            · have : fromNet (([], []) :: y.2) = fromNet y.2 := by simp [fromNet]
              rw [this]
              simp only [List.length_append] at a2 ⊢
              omega
          · obtain ⟨r'', g1, g2⟩ := step_rel r q (.forcePut c) hrel
            rw [hput] at g1
            cases g1
            have hfn : fromNet (([p], []) :: y.2) = p :: fromNet y.2 := by simp [fromNet]
            have b2' : List.Forall₂ (Recv.Exact size) (ps' ++ [p]) (Spec.step q (.forcePut c)).1.q := Recv.forall2_append b2 (.cons hex .nil)
            obtain ⟨d, todo, rf, qf, a1, a2, a3, a4, a5, a6, a7⟩ := ih (s := ⟨u, s.src⟩) (t := y.1) (outs := y.2) e2 g2 b2' hi hops'
              (by intro p' hp; exact hfit p' (by
                rw [hfn]
                simp only [List.mem_append, List.mem_cons, List.not_mem_nil, or_false] at hp ⊢
                rcases hp with (hp | hp) | hp
                · exact .inl (b1.subset hp)
                · exact .inr (.inl hp)
                · exact .inr (.inr hp))) h2 hsp'
            refine ⟨d, todo, rf, qf, ?_, ?_, by simpa [given, answers] using a3, a4, a5, a6, a7⟩
            · rw [hfn]
              refine a1.trans ?_
              rw [List.append_assoc]
              exact b1.append_right _
            · rw [hfn]
              have hl : (Spec.step q (.forcePut c)).1.lost = q.makeRoom.lost := rfl
              rw [hl] at a2
              simp only [List.length_append, List.length_cons, List.length_nil] at a2 ⊢
              omega
        | transmit sched =>
          have hasks : ∀ l ∈ sched, ∀ a ∈ l, Asks R a := hops _ List.mem_cons_self
          obtain ⟨u, o, r', e1, e2, e3, e4, e5, e6, e7, e8⟩ := Recv.take_ok hs.ring hs.wf
          have hsteady : Recv.Steady size r' u := by
            rw [e2]
            refine ⟨rfl, e3, by rw [e4]; exact hs.bufs, hs.olds, hs.state.imp id ?_⟩
            rintro ⟨i, a, b, c, d⟩; exact ⟨i, a, b, e5 i c, d⟩
          rw [step, e1, Outcome.bind_ok] at h1
          simp only at h1
          obtain ⟨r'', g1, g2⟩ := step_rel r q .take hrel
          rw [e7] at g1
          cases h3 : transmit k (o.map toFrame) sched s.src with
          | ub => rw [h3] at h1; cases h1
          | hang => rw [h3] at h1; cases h1
          | ok z =>
            rw [h3] at h1
            cases h1
            have hsp1 : k = .plain ∨ Spaced false (z.2 ++ y.2.flatMap (·.2)) := by simpa using hsp
            have hfn : fromNet (([], z.2) :: y.2) = fromNet y.2 := by simp [fromNet]
            obtain ⟨cap, qq, last, lost⟩ := q
            cases qq with
            | nil =>
              simp only [Spec.step] at g1 g2
              cases g1
              obtain ⟨i1, i2, i3⟩ := transmit_none hi hasks h3 hsp1
              obtain ⟨d, todo, rf, qf, a1, a2, a3, a4, a5, a6, a7⟩ := ih (s := ⟨u, z.1⟩) (t := y.1) (outs := y.2) hsteady g2 hps i1 hops'
                (by rw [hfn] at hfit; exact hfit) h2 i3
              refine ⟨d, todo, rf, qf, by rw [hfn]; exact a1, by rw [hfn]; exact a2, ?_, a4, a5, a6, a7⟩
              have : given (([], z.2) :: y.2) = given y.2 := by simp [given, i2]
              rw [this]; exact a3
            | cons c qq =>
              simp only [Spec.step] at g1 g2
              cases g1
              cases hps with
              | @cons p _ ps' _ hp hps =>
                have hv : Valid k (toFrame c) := exact_valid hp (hfit p (by simp))
                obtain ⟨i1, x, room, i2, i3, i4, i5⟩ := transmit_some hv hi hasks h3 hsp1
                obtain ⟨d, todo, rf, qf, a1, a2, a3, a4, a5, a6, a7⟩ := ih (s := ⟨u, z.1⟩) (t := y.1) (outs := y.2) hsteady g2 hps i1 hops'
                  (by rw [hfn] at hfit; intro p' hp'; exact hfit p' (List.mem_cons_of_mem _ hp')) h2 i5
                refine ⟨p :: d, todo, rf, qf, ?_, ?_, ?_, a4, a5, a6, a7⟩
                · rw [hfn]; exact a1.cons_cons p
                · rw [hfn]
                  simp only [List.length_append, List.length_cons] at a2 ⊢
                  omega
                · have : given (([], z.2) :: y.2) = x :: given y.2 := by simp [given, i4]
                  rw [this]
                  exact .cons (exact_sent hp i2 i3) a3

end Lms.Relay
