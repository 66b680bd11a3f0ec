/-!
# Outcomes of C++ code

`Outcome α` is the result of a piece of C++ code: a normal value, undefined behaviour
(out-of-bounds access, null dereference, `% 0`, use after free, ...) or a loop that does not
terminate (`hang`, only produced by loops that are given an explicit iteration budget).
This is the common vocabulary of all models; it does not model any particular file.
-/

namespace Lms

inductive Outcome (α : Type u) where
  | ok (a : α)
  | ub
  | hang
  deriving DecidableEq, Repr

namespace Outcome

def bind {α : Type u} {β : Type v} (x : Outcome α) (f : α → Outcome β) : Outcome β :=
  match x with
  | ok a => f a
  | ub => ub
  | hang => hang

def map {α : Type u} {β : Type v} (f : α → β) (x : Outcome α) : Outcome β :=
  match x with
  | ok a => ok (f a)
  | ub => ub
  | hang => hang

instance : Monad Outcome where
  pure := ok
  bind := bind

@[simp] theorem bind_ok {α : Type u} {β : Type v} (a : α) (f : α → Outcome β) :
    Outcome.bind (ok a) f = f a := rfl
@[simp] theorem bind_ub {α : Type u} {β : Type v} (f : α → Outcome β) :
    Outcome.bind (ub : Outcome α) f = ub := rfl
@[simp] theorem bind_hang {α : Type u} {β : Type v} (f : α → Outcome β) :
    Outcome.bind (hang : Outcome α) f = hang := rfl
@[simp] theorem map_ok {α : Type u} {β : Type v} (a : α) (f : α → β) :
    Outcome.map f (ok a) = ok (f a) := rfl
@[simp] theorem map_ub {α : Type u} {β : Type v} (f : α → β) :
    Outcome.map f (ub : Outcome α) = ub := rfl

@[simp] theorem do_bind_ok {α β : Type u} (a : α) (f : α → Outcome β) :
    ((ok a : Outcome α) >>= f) = f a := rfl
@[simp] theorem do_bind_ub {α β : Type u} (f : α → Outcome β) :
    ((ub : Outcome α) >>= f) = ub := rfl
@[simp] theorem do_bind_hang {α β : Type u} (f : α → Outcome β) :
    ((hang : Outcome α) >>= f) = hang := rfl
@[simp] theorem do_pure {α : Type u} (a : α) : (pure a : Outcome α) = ok a := rfl

end Outcome

/-- Run a step function over a list of operations, collecting the outputs; stops at the first
undefined behaviour or hang. -/
def runOps {σ : Type u} {ι : Type v} {ω : Type w} (step : σ → ι → Outcome (σ × ω)) :
    σ → List ι → Outcome (σ × List ω)
  | s, [] => .ok (s, [])
  | s, op :: ops =>
    (step s op).bind fun (s', o) => (runOps step s' ops).bind fun (s'', os) => .ok (s'', o :: os)

/-- Same for a pure (total) step function: used for specifications. -/
def runSpec {σ : Type u} {ι : Type v} {ω : Type w} (step : σ → ι → σ × ω) :
    σ → List ι → σ × List ω
  | s, [] => (s, [])
  | s, op :: ops =>
    let r := step s op
    let r' := runSpec step r.1 ops
    (r'.1, r.2 :: r'.2)

/-- Generic forward simulation: if every concrete step matches a specification step under an
invariant and an abstraction, whole runs match. -/
theorem runOps_refines {σ : Type u} {τ : Type u'} {ι : Type v} {ω : Type w}
    (step : σ → ι → Outcome (σ × ω)) (spec : τ → ι → τ × ω)
    (Ok : ι → Prop) (R : σ → τ → Prop)
    (h : ∀ s t op, Ok op → R s t →
      ∃ s', step s op = .ok (s', (spec t op).2) ∧ R s' (spec t op).1) :
    ∀ ops s t, (∀ op ∈ ops, Ok op) → R s t →
      ∃ s', runOps step s ops = .ok (s', (runSpec spec t ops).2) ∧ R s' (runSpec spec t ops).1 := by
  intro ops
  induction ops with
  | nil => intro s t _ hr; exact ⟨s, rfl, hr⟩
  | cons op ops ih =>
    intro s t hok hr
    obtain ⟨s', hs', hr'⟩ := h s t op (hok op (by simp)) hr
    obtain ⟨s'', hs'', hr''⟩ := ih s' _ (fun o ho => hok o (by simp [ho])) hr'
    refine ⟨s'', ?_, hr''⟩
    simp [runOps, hs', hs'', runSpec]

/-- A history each of whose operations satisfies `Safe` in the specification state it meets. -/
def SafeRun {τ : Type u'} {ι : Type v} {ω : Type w} (spec : τ → ι → τ × ω) (Safe : τ → ι → Prop) :
    τ → List ι → Prop
  | _, [] => True
  | t, op :: ops => Safe t op ∧ SafeRun spec Safe (spec t op).1 ops

/-- Forward simulation for histories whose operations are safe in the state they meet. -/
theorem runOps_refines_safe {σ : Type u} {τ : Type u'} {ι : Type v} {ω : Type w}
    (step : σ → ι → Outcome (σ × ω)) (spec : τ → ι → τ × ω)
    (Safe : τ → ι → Prop) (R : σ → τ → Prop)
    (h : ∀ s t op, Safe t op → R s t →
      ∃ s', step s op = .ok (s', (spec t op).2) ∧ R s' (spec t op).1) :
    ∀ ops s t, SafeRun spec Safe t ops → R s t →
      ∃ s', runOps step s ops = .ok (s', (runSpec spec t ops).2) ∧ R s' (runSpec spec t ops).1 := by
  intro ops
  induction ops with
  | nil => intro s t _ hr; exact ⟨s, rfl, hr⟩
  | cons op ops ih =>
    intro s t hok hr
    obtain ⟨s', hs', hr'⟩ := h s t op hok.1 hr
    obtain ⟨s'', hs'', hr''⟩ := ih s' _ hok.2 hr'
    refine ⟨s'', ?_, hr''⟩
    simp [runOps, hs', hs'', runSpec]

theorem runSpec_append {σ : Type u} {ι : Type v} {ω : Type w} (step : σ → ι → σ × ω) (s : σ)
    (a b : List ι) :
    runSpec step s (a ++ b) =
      ((runSpec step (runSpec step s a).1 b).1,
        (runSpec step s a).2 ++ (runSpec step (runSpec step s a).1 b).2) := by
  induction a generalizing s with
  | nil => simp [runSpec]
  | cons x a ih => simp [runSpec, ih]

theorem runOps_append {σ : Type u} {ι : Type v} {ω : Type w} (step : σ → ι → Outcome (σ × ω))
    (s : σ) (a b : List ι) :
    runOps step s (a ++ b) =
      (runOps step s a).bind fun (s', o1) => (runOps step s' b).bind fun (s'', o2) =>
        .ok (s'', o1 ++ o2) := by
  induction a generalizing s with
  | nil => simp [runOps]; rcases runOps step s b with ⟨x, y⟩ | _ | _ <;> rfl
  | cons x a ih =>
    simp only [List.cons_append, runOps]
    rcases step s x with ⟨s1, o⟩ | _ | _ <;> simp only [Outcome.bind_ok, Outcome.bind_ub, Outcome.bind_hang]
    rw [ih]
    rcases runOps step s1 a with ⟨s2, o2⟩ | _ | _ <;>
      simp only [Outcome.bind_ok, Outcome.bind_ub, Outcome.bind_hang]
    rcases runOps step s2 b with ⟨s3, o3⟩ | _ | _ <;>
      simp only [Outcome.bind_ok, Outcome.bind_ub, Outcome.bind_hang, List.cons_append]

theorem runOps_cons_ok {σ : Type u} {ι : Type v} {ω : Type w} {step : σ → ι → Outcome (σ × ω)}
    {s s' : σ} {op : ι} {ops : List ι} {outs : List ω} (h : runOps step s (op :: ops) = .ok (s', outs)) :
    ∃ s1 o os, step s op = .ok (s1, o) ∧ runOps step s1 ops = .ok (s', os) ∧ outs = o :: os := by
  unfold runOps at h
  rcases h1 : step s op with ⟨s1, o⟩ | _ | _
  · rw [h1] at h
    simp only [Outcome.bind_ok] at h
    rcases h2 : runOps step s1 ops with ⟨s2, os⟩ | _ | _
    · rw [h2] at h
      simp only [Outcome.bind_ok] at h
      injection h with h
      injection h with h3 h4
      exact ⟨s1, o, os, rfl, by rw [h2, h3], h4.symm⟩
    · rw [h2] at h; simp at h
    · rw [h2] at h; simp at h
  · rw [h1] at h; simp at h
  · rw [h1] at h; simp at h

end Lms
