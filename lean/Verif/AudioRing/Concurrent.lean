import Verif.AudioRing.Props

/-! # The audio ring used by two threads

C49.  The writing filter's thread pushes, the reading filter's thread pops.  `popFront` and `doFlush` run under the
mutex (src/AudioCircularBuffer.cpp:74, 84, 162), `pushBack` does not (132, 138), so the copying and the
read-modify-write accesses of `elements` interleave.  A value of type `β` stands for one byte of every channel: all
channels are accessed at the same index.  Accesses are untorn and sequentially consistent (in C++ the plain fields
make this a data race).  The capacity is positive. -/

namespace Lms.AudioRing.Conc

variable {β : Type}

/-- The writer in `pushBack` (src/AudioCircularBuffer.cpp:223-254). -/
inductive WPc (β : Type) where
  | idle
  /-- the test of line 229 passed, `j` bytes copied (233-249) -/
  | copying (buf : List β) (j : Nat)
  /-- line 251: `elements` loaded -/
  | loaded (buf : List β) (v : Nat)
  deriving DecidableEq, Repr

/-- The reader in `popFront` (256-292) with `n` bytes. -/
inductive RPc (β : Type) where
  | idle
  /-- the test of line 260 passed, `got` copied (274-288) -/
  | copying (n : Nat) (got : List β)
  /-- line 290: `elements` loaded -/
  | loaded (n : Nat) (got : List β) (v : Nat)
  deriving DecidableEq, Repr

/-- src/AudioCircularBuffer.hh: `channelMaxLength`, `elements`, `data`, `rear`, `front`, and what was accepted from
the writer and delivered to the reader since the last flush. -/
structure St (β : Type) where
  max : Nat
  el : Nat
  data : Nat → β
  rear : Nat
  front : Nat
  w : WPc β
  r : RPc β
  acc : List β
  out : List β

/-- What a thread does next: start a push or a pop, flush, or go on with what it started. -/
inductive Act (β : Type) where
  | push (buf : List β) | pop (n : Nat) | flush | w | r
  deriving DecidableEq, Repr

/-- The accesses of the counter, as they happen. -/
inductive Ev where
  | wload | wstore (n : Nat) | rload | rstore (n : Nat) | flush
  deriving DecidableEq, Repr

/-- One atomic action. A refused push or pop, or an action that is not possible, leaves everything as it is.
`rear` and `front` belong to one thread each, so their updates (252, 291) are joined with the stores before them.
`elements` is an `unsigned`, the differences are taken modulo 2^32. -/
def step (s : St β) : Act β → St β × Option Ev
  | .push buf => match s.w with
    | .idle => if buf.length > (s.max + 2 ^ 32 - s.el) % 2 ^ 32 then (s, none) else ({ s with w := .copying buf 0 }, none)
    | _ => (s, none)
  | .pop n => match s.r with
    | .idle => if s.el < n then (s, none) else ({ s with r := .copying n [] }, none)
    | _ => (s, none)
  | .flush => match s.w, s.r with
    | .idle, .idle => ({ s with el := 0, rear := 0, front := 0, acc := [], out := [] }, some .flush)
    | _, _ => (s, none)
  | .w => match s.w with
    | .idle => (s, none)
    | .copying buf j => match buf[j]? with
      | some b => ({ s with data := fun i => if i = (s.rear + j) % s.max then b else s.data i, w := .copying buf (j + 1) }, none)
      | none => ({ s with w := .loaded buf s.el }, some .wload)
    | .loaded buf v => ({ s with w := .idle, el := (v + buf.length) % 2 ^ 32, rear := s.rear + buf.length, acc := s.acc ++ buf }, some (.wstore buf.length))
  | .r => match s.r with
    | .idle => (s, none)
    | .copying n got => if got.length < n then ({ s with r := .copying n (got ++ [s.data ((s.front + got.length) % s.max)]) }, none)
      else ({ s with r := .loaded n got s.el }, some .rload)
    | .loaded n got v => ({ s with r := .idle, el := (v + 2 ^ 32 - n) % 2 ^ 32, front := s.front + n, out := s.out ++ got }, some (.rstore n))

/-- A schedule, with the accesses of the counter. -/
def run : St β → List (Act β) → St β × List Ev
  | s, [] => (s, [])
  | s, a :: as => ((run (step s a).1 as).1, (step s a).2.toList ++ (run (step s a).1 as).2)

/-- The buffer after `setup` (src/AudioCircularBuffer.cpp:202-206). -/
def init (max : Nat) (d : Nat → β) : St β := ⟨max, 0, d, 0, 0, .idle, .idle, [], []⟩

/-! ## Specification: which updates are overwritten

Read off the accesses alone. `w` is how much the reader took off the counter since the writer loaded it, if the
writer is in an update; `r` how much the writer added since the reader loaded it. -/

structure Over where
  w : Option Nat
  r : Option Nat
  lostPop : Nat
  lostPush : Nat
  deriving DecidableEq, Repr

/-- A store overwrites what the other thread did since the load. A flush starts afresh. -/
def Over.next (o : Over) : Ev → Over
  | .wload => { o with w := some 0 }
  | .rload => { o with r := some 0 }
  | .wstore n => { o with w := none, r := o.r.map fun k => k + n + o.w.getD 0, lostPop := o.lostPop + o.w.getD 0 }
  | .rstore n => { o with r := none, w := o.w.map fun k => k + n + o.r.getD 0, lostPush := o.lostPush + o.r.getD 0 }
  | .flush => ⟨none, none, 0, 0⟩

def Over.all (o : Over) (evs : List Ev) : Over := evs.foldl Over.next o

/-- Bytes whose removal, and bytes whose addition, was overwritten in the counter since the last flush. -/
def lostPops (evs : List Ev) : Nat := (Over.all ⟨none, none, 0, 0⟩ evs).lostPop
def lostPushes (evs : List Ev) : Nat := (Over.all ⟨none, none, 0, 0⟩ evs).lostPush

/-! ## The counter -/

/-- What holds of the counter in every schedule. -/
structure Inv (s : St β) (o : Over) : Prop where
  cap : s.max < 2 ^ 32
  pos : 0 < s.max
  el : s.el + s.out.length + o.lostPush = s.acc.length + o.lostPop
  le : s.el ≤ s.max
  rear : s.rear = s.acc.length
  front : s.front = s.out.length
  w : match s.w with
      | .idle => o.w = none
      | .copying buf j => o.w = none ∧ s.el + buf.length ≤ s.max ∧ j ≤ buf.length
      | .loaded buf v => v + buf.length ≤ s.max ∧ ∃ k, o.w = some k ∧ v = s.el + k
  r : match s.r with
      | .idle => o.r = none
      | .copying n got => o.r = none ∧ n ≤ s.el ∧ got.length ≤ n
      | .loaded n got v => got.length = n ∧ n ≤ v ∧ ∃ k, o.r = some k ∧ s.el = v + k

theorem init_inv {max : Nat} (hp : 0 < max) (hm : max < 2 ^ 32) (d : Nat → β) : Inv (init max d) ⟨none, none, 0, 0⟩ :=
  ⟨hm, hp, rfl, Nat.zero_le _, rfl, rfl, rfl, rfl⟩

theorem room_eq {m e : Nat} (h : e ≤ m) (hm : m < 2 ^ 32) : (m + 2 ^ 32 - e) % 2 ^ 32 = m - e := by omega

theorem step_inv {s : St β} {o : Over} (h : Inv s o) (a : Act β) : Inv (step s a).1 (Over.all o (step s a).2.toList) := by
  obtain ⟨max, el, data, rear, front, w, r, acc, out⟩ := s
  obtain ⟨ow, or, lp, ls⟩ := o
  obtain ⟨h1, h2, h3, h4, h5, h6, h7, h8⟩ := h
  simp only at h1 h2 h3 h4 h5 h6 h7 h8
  cases a with
  | push buf =>
    cases w with
    | idle =>
      simp only [step]
      rw [room_eq h4 h1]
      split
      · exact ⟨h1, h2, h3, h4, h5, h6, h7, h8⟩
      · exact ⟨h1, h2, h3, h4, h5, h6, ⟨h7, by simp only; omega, Nat.zero_le _⟩, h8⟩
    | copying buf j => exact ⟨h1, h2, h3, h4, h5, h6, h7, h8⟩
    | loaded buf v => exact ⟨h1, h2, h3, h4, h5, h6, h7, h8⟩
  | pop n =>
    cases r with
    | idle =>
      simp only [step]
      split
      · exact ⟨h1, h2, h3, h4, h5, h6, h7, h8⟩
      · exact ⟨h1, h2, h3, h4, h5, h6, h7, ⟨h8, by simp only; omega, Nat.zero_le _⟩⟩
    | copying n got => exact ⟨h1, h2, h3, h4, h5, h6, h7, h8⟩
    | loaded n got v => exact ⟨h1, h2, h3, h4, h5, h6, h7, h8⟩
  | flush =>
    cases w with
    | idle =>
      cases r with
      | idle => exact ⟨h1, h2, rfl, Nat.zero_le _, rfl, rfl, rfl, rfl⟩
      | copying n got => exact ⟨h1, h2, h3, h4, h5, h6, h7, h8⟩
      | loaded n got v => exact ⟨h1, h2, h3, h4, h5, h6, h7, h8⟩
    | copying buf j => exact ⟨h1, h2, h3, h4, h5, h6, h7, h8⟩
    | loaded buf v => exact ⟨h1, h2, h3, h4, h5, h6, h7, h8⟩
  | w =>
    cases w with
    | idle => exact ⟨h1, h2, h3, h4, h5, h6, h7, h8⟩
    | copying buf j =>
      obtain ⟨g1, g2, g3⟩ := h7
      simp only [step]
      cases hb : buf[j]? with
      | some b =>
        have := (List.getElem?_eq_some_iff.1 hb).1
        exact ⟨h1, h2, h3, h4, h5, h6, ⟨g1, g2, this⟩, h8⟩
      | none => exact ⟨h1, h2, h3, h4, h5, h6, ⟨g2, 0, rfl, rfl⟩, h8⟩
    | loaded buf v =>
      obtain ⟨g1, k, g2, g3⟩ := h7
      subst g2 g3
      have e : (el + k + buf.length) % 2 ^ 32 = el + k + buf.length := Nat.mod_eq_of_lt (by omega)
      simp only [step, e, Option.toList, Over.all, List.foldl, Over.next, Option.getD_some]
      refine ⟨h1, h2, by simp only [List.length_append]; omega, by simp only; omega, by simp only [List.length_append]; omega, h6, rfl, ?_⟩
      cases r with
      | idle => simp only at h8 ⊢; rw [h8]; rfl
      | copying n got => obtain ⟨a, b, c⟩ := h8; exact ⟨by simp only; rw [a]; rfl, by simp only; omega, c⟩
      | loaded n got u =>
        obtain ⟨a, b, k', c, d⟩ := h8
        exact ⟨a, b, k' + buf.length + k, by simp only; rw [c]; rfl, by simp only; omega⟩
  | r =>
    cases r with
    | idle => exact ⟨h1, h2, h3, h4, h5, h6, h7, h8⟩
    | copying n got =>
      obtain ⟨g1, g2, g3⟩ := h8
      simp only [step]
      split
      · exact ⟨h1, h2, h3, h4, h5, h6, h7, ⟨g1, g2, by simp only [List.length_append, List.length_cons, List.length_nil]; omega⟩⟩
      · exact ⟨h1, h2, h3, h4, h5, h6, h7, ⟨by omega, g2, 0, rfl, rfl⟩⟩
    | loaded n got v =>
      obtain ⟨g1, g2, k, g3, g4⟩ := h8
      subst g3
      have e : (v + 2 ^ 32 - n) % 2 ^ 32 = v - n := by omega
      simp only [step, e, Option.toList, Over.all, List.foldl, Over.next, Option.getD_some]
      refine ⟨h1, h2, by simp only [List.length_append]; omega, by simp only; omega, h5, by simp only [List.length_append]; omega, ?_, rfl⟩
      cases w with
      | idle => simp only at h7 ⊢; rw [h7]; rfl
      | copying buf j => obtain ⟨a, b, c⟩ := h7; exact ⟨by simp only; rw [a]; rfl, by simp only; omega, c⟩
      | loaded buf u =>
        obtain ⟨a, k', c, d⟩ := h7
        exact ⟨a, k' + n + k, by simp only; rw [c]; rfl, by simp only; omega⟩

theorem Over.all_append (o : Over) (a b : List Ev) : Over.all o (a ++ b) = Over.all (Over.all o a) b := List.foldl_append

theorem run_inv (as : List (Act β)) : ∀ {s : St β} {o : Over}, Inv s o → Inv (run s as).1 (Over.all o (run s as).2) := by
  induction as with
  | nil => intro s o h; exact h
  | cons a as ih => intro s o h; simp only [run]; rw [Over.all_append]; exact ih (step_inv h a)

/-- **C49: the counter in every schedule.** It never exceeds the capacity, and it is the number of bytes accepted
minus the number delivered since the last flush, plus the removals and minus the additions overwritten by an update of
the other thread that had loaded the counter before. -/
theorem count_in_every_schedule (max : Nat) (hp : 0 < max) (hm : max < 2 ^ 32) (d : Nat → β) (as : List (Act β)) :
    (run (init max d) as).1.el + (run (init max d) as).1.out.length + lostPushes (run (init max d) as).2 =
        (run (init max d) as).1.acc.length + lostPops (run (init max d) as).2 ∧
      (run (init max d) as).1.el ≤ (run (init max d) as).1.max :=
  ⟨(run_inv as (init_inv hp hm d)).el, (run_inv as (init_inv hp hm d)).le⟩

/-! ## The bytes -/

/-- What holds of the bytes as long as no update has been overwritten since the last flush. -/
structure Right (s : St β) : Prop where
  out : s.out <+: s.acc
  data : ∀ i x, s.front ≤ i → s.acc[i]? = some x → s.data (i % s.max) = x
  w : match s.w with
      | .idle => True
      | .copying buf j => ∀ t x, t < j → buf[t]? = some x → s.data ((s.rear + t) % s.max) = x
      | .loaded buf _ => ∀ t x, buf[t]? = some x → s.data ((s.rear + t) % s.max) = x
  r : match s.r with
      | .idle => True
      | .copying _ got => s.out ++ got <+: s.acc
      | .loaded _ got _ => s.out ++ got <+: s.acc

theorem mod_ne {a b m : Nat} (h1 : a < b) (h2 : b < a + m) : a % m ≠ b % m := by
  intro e
  have h := Nat.sub_mod_eq_zero_of_mod_eq e.symm
  have : (b - a) % m = b - a := Nat.mod_eq_of_lt (by omega)
  omega

theorem lost_mono (o : Over) (e : Ev) (he : e ≠ .flush) : o.lostPop ≤ (o.next e).lostPop ∧ o.lostPush ≤ (o.next e).lostPush := by
  cases e <;> simp [Over.next] at *

theorem step_right {s : St β} {o : Over} (h : Inv s o) (hr : o.lostPop = 0 → o.lostPush = 0 → Right s) (a : Act β) :
    (Over.all o (step s a).2.toList).lostPop = 0 → (Over.all o (step s a).2.toList).lostPush = 0 → Right (step s a).1 := by
  obtain ⟨max, el, data, rear, front, w, r, acc, out⟩ := s
  obtain ⟨ow, or, lp, ls⟩ := o
  obtain ⟨h1, h2, h3, h4, h5, h6, h7, h8⟩ := h
  simp only at h1 h2 h3 h4 h5 h6 h7 h8 hr
  cases a with
  | push buf =>
    cases w with
    | idle =>
      simp only [step]
      split
      · exact hr
      · intro a b
        obtain ⟨q1, q2, q3, q4⟩ := hr a b
        exact ⟨q1, q2, fun t x ht => absurd ht (Nat.not_lt_zero _), q4⟩
    | copying buf j => exact hr
    | loaded buf v => exact hr
  | pop n =>
    cases r with
    | idle =>
      simp only [step]
      split
      · exact hr
      · intro a b
        obtain ⟨q1, q2, q3, q4⟩ := hr a b
        exact ⟨q1, q2, q3, by show out ++ [] <+: acc; rw [List.append_nil]; exact q1⟩
    | copying n got => exact hr
    | loaded n got v => exact hr
  | flush =>
    cases w with
    | idle =>
      cases r with
      | idle => exact fun _ _ => ⟨List.prefix_refl _, fun i x _ hx => (by cases hx), trivial, trivial⟩
      | copying n got => exact hr
      | loaded n got v => exact hr
    | copying buf j => exact hr
    | loaded buf v => exact hr
  | w =>
    cases w with
    | idle => exact hr
    | copying buf j =>
      obtain ⟨g1, g2, g3⟩ := h7
      simp only [step]
      cases hb : buf[j]? with
      | some b =>
        intro a c
        have hj := (List.getElem?_eq_some_iff.1 hb).1
        have a' : lp = 0 := a
        have c' : ls = 0 := c
        obtain ⟨q1, q2, q3, q4⟩ := hr a' c'
        subst h5 h6 a' c'
        refine ⟨q1, ?_, ?_, q4⟩
        · intro i x hi hx
          have hx : acc[i]? = some x := hx
          have hil := (List.getElem?_eq_some_iff.1 hx).1
          simp only at hi ⊢
          rw [if_neg (mod_ne (by omega) (by omega))]
          exact q2 i x hi hx
        · intro t x ht hx
          simp only
          by_cases htj : t = j
          · subst htj; rw [if_pos rfl]; rw [hb] at hx; cases hx; rfl
          · rw [if_neg (mod_ne (by omega) (by omega))]
            exact q3 t x (by omega) hx
      | none =>
        intro a c
        obtain ⟨q1, q2, q3, q4⟩ := hr a c
        refine ⟨q1, q2, ?_, q4⟩
        intro t x hx
        have h9 := List.getElem?_eq_none_iff.1 hb
        have h10 := (List.getElem?_eq_some_iff.1 hx).1
        exact q3 t x (by omega) hx
    | loaded buf v =>
      obtain ⟨g1, k, g2, g3⟩ := h7
      intro a c
      simp only [step, Option.toList, Over.all, List.foldl, Over.next] at a c ⊢
      obtain ⟨q1, q2, q3, q4⟩ := hr (by omega) c
      have happ : acc <+: acc ++ buf := List.prefix_append _ _
      refine ⟨q1.trans happ, ?_, trivial, ?_⟩
      · intro i x hi hx
        simp only at hi hx ⊢
        by_cases hil : i < acc.length
        · rw [List.getElem?_append_left hil] at hx
          exact q2 i x hi hx
        · rw [List.getElem?_append_right (by omega)] at hx
          have := q3 _ _ hx
          rwa [h5, (by omega : acc.length + (i - acc.length) = i)] at this
      · cases r with
        | idle => trivial
        | copying n got => exact q4.trans happ
        | loaded n got u => exact q4.trans happ
  | r =>
    cases r with
    | idle => exact hr
    | copying n got =>
      obtain ⟨g1, g2, g3⟩ := h8
      simp only [step]
      split
      · rename_i hlt
        intro a c
        have a' : lp = 0 := a
        have c' : ls = 0 := c
        obtain ⟨q1, q2, q3, q4⟩ := hr a' c'
        refine ⟨q1, q2, q3, ?_⟩
        simp only at q4 ⊢
        have hlen : out.length + got.length < acc.length := by omega
        have hx : acc[out.length + got.length]? = some acc[out.length + got.length] := List.getElem?_eq_getElem hlen
        have hd : data ((out.length + got.length) % max) = acc[out.length + got.length] := q2 _ _ (by simp only; omega) hx
        rw [h6, hd]
        obtain ⟨tl, htl⟩ := q4
        rw [← List.append_assoc]
        cases tl with
        | nil => rw [← htl] at hlen; simp at hlen
        | cons y ys =>
          have : acc[out.length + got.length] = y := by
            simp only [← htl]
            rw [List.getElem_append_right (by simp)]
            simp
          rw [this]
          exact ⟨ys, by simpa using htl⟩
      · intro a c
        obtain ⟨q1, q2, q3, q4⟩ := hr a c
        exact ⟨q1, q2, q3, q4⟩
    | loaded n got v =>
      obtain ⟨g1, g2, k, g3, g4⟩ := h8
      intro a c
      simp only [step, Option.toList, Over.all, List.foldl, Over.next] at a c ⊢
      obtain ⟨q1, q2, q3, q4⟩ := hr a (by omega)
      refine ⟨q4, ?_, ?_, trivial⟩
      · intro i x hi hx
        exact q2 i x (by simp only at hi ⊢; omega) hx
      · cases w with
        | idle => trivial
        | copying buf j => exact q3
        | loaded buf u => exact q3

theorem run_right (as : List (Act β)) : ∀ {s : St β} {o : Over}, Inv s o → (o.lostPop = 0 → o.lostPush = 0 → Right s) →
    (Over.all o (run s as).2).lostPop = 0 → (Over.all o (run s as).2).lostPush = 0 → Right (run s as).1 := by
  induction as with
  | nil => intro s o _ h; exact h
  | cons a as ih => intro s o hi h; simp only [run]; rw [Over.all_append]; exact ih (step_inv hi a) (step_right hi h a)

/-- **C49: the bytes.** However the copying of a push and of a pop interleaves byte by byte, as long as no update of the
counter has been overwritten since the last flush, the bytes delivered since then are the first of those accepted since
then, in order, and the counter is the number still in the buffer. -/
theorem bytes_right_without_overlap (max : Nat) (hp : 0 < max) (hm : max < 2 ^ 32) (d : Nat → β) (as : List (Act β))
    (h1 : lostPops (run (init max d) as).2 = 0) (h2 : lostPushes (run (init max d) as).2 = 0) :
    (run (init max d) as).1.out <+: (run (init max d) as).1.acc ∧
      (run (init max d) as).1.el + (run (init max d) as).1.out.length = (run (init max d) as).1.acc.length := by
  have hi := run_inv as (init_inv hp hm d)
  have hr := run_right as (init_inv hp hm d) (fun _ _ => ⟨List.prefix_refl _, fun i x _ hx => by simp [init] at hx, trivial, trivial⟩) h1 h2
  have := hi.el
  unfold lostPops at h1
  unfold lostPushes at h2
  exact ⟨hr.out, by omega⟩

theorem paired_all (pairs : List (List Ev)) : ∀ o : Over, o.w = none → o.r = none →
    (∀ p ∈ pairs, (∃ n, p = [.wload, .wstore n]) ∨ (∃ n, p = [.rload, .rstore n]) ∨ p = [.flush]) →
    (Over.all o pairs.flatten).lostPop ≤ o.lostPop ∧ (Over.all o pairs.flatten).lostPush ≤ o.lostPush := by
  induction pairs with
  | nil => intro o _ _ _; exact ⟨Nat.le_refl _, Nat.le_refl _⟩
  | cons p ps ih =>
    intro o hw hr hall
    rw [List.flatten_cons, Over.all_append]
    have hps := fun q hq => hall q (List.mem_cons_of_mem _ hq)
    rcases hall p (List.mem_cons_self ..) with ⟨n, rfl⟩ | ⟨n, rfl⟩ | rfl
    · simpa [Over.all, Over.next] using ih (Over.all o [.wload, .wstore n]) rfl (by simp [Over.all, Over.next, hr]) hps
    · simpa [Over.all, Over.next] using ih (Over.all o [.rload, .rstore n]) (by simp [Over.all, Over.next, hw]) rfl hps
    · have h := ih (Over.all o [.flush]) rfl rfl hps
      exact ⟨Nat.le_trans h.1 (Nat.zero_le _), Nat.le_trans h.2 (Nat.zero_le _)⟩

/-- A schedule in which the load and the store of every update follow one another in the accesses of the counter
overwrites nothing: the hypotheses of `bytes_right_without_overlap` hold. -/
theorem paired_loses_nothing (pairs : List (List Ev)) (h : ∀ p ∈ pairs, (∃ n, p = [.wload, .wstore n]) ∨ (∃ n, p = [.rload, .rstore n]) ∨ p = [.flush]) :
    lostPops pairs.flatten = 0 ∧ lostPushes pairs.flatten = 0 := by
  have := paired_all pairs ⟨none, none, 0, 0⟩ rfl rfl h
  exact ⟨Nat.le_zero.1 this.1, Nat.le_zero.1 this.2⟩

/-- What the reader got and what is left, for the runs below. -/
def seen (as : List (Act Nat)) : List Nat × Nat × List Nat := ((run (init 4 fun _ => 0) as).1.out, (run (init 4 fun _ => 0) as).1.el, (run (init 4 fun _ => 0) as).1.acc)

/-- Copies interleaved, wrapping around, updates apart. -/
example : seen [.push [1, 2, 3], .w, .w, .w, .w, .w, .pop 2, .push [4], .r, .w, .r, .w, .w, .r, .r, .push [5, 6], .pop 2, .w, .r, .w, .r, .w, .w, .r, .r] =
    ([1, 2, 3, 4], 2, [1, 2, 3, 4, 5, 6]) := by decide +kernel
example : lostPops (run (init 4 fun _ => 0) [.push [1, 2, 3], .w, .w, .w, .w, .w, .pop 2, .push [4], .r, .w, .r, .w, .w, .r, .r]).2 = 0 := by decide +kernel

/-- **C49, finding.** With overlapping updates the counter goes wrong both ways. First run: two bytes are left, the
reader is told there are four, and is handed bytes a second time. Second run: two bytes are in the buffer but it counts
as empty. A flush sets it right again. -/
theorem overlapping_updates_corrupt_the_count :
    seen [.push [1, 2], .w, .w, .w, .w, .push [3, 4], .w, .w, .w, .pop 2, .r, .r, .r, .r, .w, .pop 4, .r, .r, .r, .r, .r, .r] = ([1, 2, 3, 4, 1, 2], 0, [1, 2, 3, 4]) ∧
    seen [.push [1, 2], .w, .w, .w, .w, .pop 2, .r, .r, .r, .push [3, 4], .w, .w, .w, .w, .r] = ([1, 2], 0, [1, 2, 3, 4]) ∧
    seen [.push [1, 2], .w, .w, .w, .w, .pop 2, .r, .r, .r, .push [3, 4], .w, .w, .w, .w, .r, .flush, .push [5], .w, .w, .w] = ([], 1, [5]) := by decide +kernel

end Lms.AudioRing.Conc
