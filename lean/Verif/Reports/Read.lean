import Verif.Encoder.Config
import Verif.Reports.Model

/-!
# C81: how an event with given members is read
-/

namespace Lms.Reports

open Lms Lms.Json Lms.Control Lms.FilterEvents

/-! ## Reading events -/

/-- Parameters that are all there with these values, or may be left out. -/
theorem read_some (f : Form) (ps : List (String × Node)) (args : Args)
    (h1 : ∀ q ∈ f.pars, (ps.lookup q.name = none ∧ q.need = false) ∨
      ∃ n, ps.lookup q.name = some n ∧ q.ty.proper n = true ∧ (q.ty.value n).isSome = true)
    (h2 : f.pars.map (fun q => (ps.lookup q.name).bind q.ty.value) = args) (h3 : f.whole args = some args) :
    f.read (some (object ps)) = .takes args := by
  have hg : ∀ q ∈ f.pars, q.given (object ps) = ps.lookup q.name := by
    intro q hq
    unfold Par.given
    rw [member_object]
    rcases h1 q hq with ⟨hn, _⟩ | ⟨n, hn, hp, _⟩
    · rw [hn]
    · rw [hn]; simp [hp]
  have a1 : f.pars.any (·.refuses (object ps)) = false := by
    rw [List.any_eq_false]
    intro q hq
    unfold Par.refuses
    rw [member_object]
    rcases h1 q hq with ⟨hn, hd⟩ | ⟨n, hn, hp, _⟩
    · rw [hn]; simp [hd]
    · rw [hn]; simp [hp]
  have a2 : f.pars.any (·.ends (object ps)) = false := by
    rw [List.any_eq_false]
    intro q hq
    unfold Par.ends
    rw [hg q hq]
    rcases h1 q hq with ⟨hn, hd⟩ | ⟨n, hn, _, hv⟩
    · rw [hn]; simp
    · rw [hn]
      obtain ⟨v, hv⟩ := Option.isSome_iff_exists.1 hv
      simp [hv]
  have a3 : f.pars.map (·.read (object ps)) = args := by
    rw [← h2]
    exact List.map_congr_left fun q hq => by unfold Par.read; rw [hg q hq]
  unfold object at a1 a2 a3 ⊢
  simp only [Form.read, a1, a2, a3, h3]
  rfl

theorem sent (k : Kind) (a : String) (i : Nat) (f : Form) (hf : (forms k)[i]? = some (a, f))
    (ha : '\\' ∉ a.toList) (ps : List (String × Node)) (args : Args)
    (h1 : ∀ q ∈ f.pars, (ps.lookup q.name = none ∧ q.need = false) ∨
      ∃ n, ps.lookup q.name = some n ∧ q.ty.proper n = true ∧ (q.ty.value n).isSome = true)
    (h2 : f.pars.map (fun q => (ps.lookup q.name).bind q.ty.value) = args) (h3 : f.whole args = some args) :
    taken k (apiEvent a ps) = .ok (.called a.toList args) := by
  unfold taken
  rw [api_execute _ k a f (List.mem_of_getElem? hf) ha ps, read_some f ps args h1 h2 h3]; rfl

/-- An event with an action of the table that is carried out has the values of its members. -/
theorem carried_out (k : Kind) (a : String) (i : Nat) (f : Form) (hf : (forms k)[i]? = some (a, f)) (m l : List (Str × Node))
    (ha : actionOf (.obj m) = some a.toList) (hp : member "params" (.obj m) = some (.obj l)) (b : Str) (args : Args)
    (h : taken k (.obj m) = .ok (.called b args)) : b = a.toList ∧ f.whole (f.pars.map (·.read (.obj l))) = some args := by
  unfold taken at h
  rw [event_by_table _ k m a f (List.mem_of_getElem? hf) ha, hp] at h
  simp only [Form.read] at h
  split at h
  · simp [Verdict.taken] at h
  · split at h
    · simp [Verdict.taken] at h
    · split at h
      · rename_i x hx
        simp only [Verdict.taken, R.ok.injEq, Taken.called.injEq] at h
        exact ⟨h.1.symm, by rw [hx, h.2]⟩
      · simp [Verdict.taken] at h

theorem int_read (p : Par) (ht : p.ty = .int) (n : Node) : p.read n = none ∨ ∃ z, Fits z ∧ p.read n = some (.int z) := by
  unfold Par.read
  cases p.given n with
  | none => exact Or.inl rfl
  | some m =>
    have hv : Ty.value .int m = (intOf m).map .int := by unfold Ty.value; rfl
    rw [Option.bind_some, ht, hv]
    cases hm : intOf m with
    | none => exact Or.inl rfl
    | some z =>
      refine Or.inr ⟨z, ?_, rfl⟩
      unfold intOf at hm
      split at hm
      · cases hm; exact ⟨by decide, by decide⟩
      · cases hm; exact readInt_fits _
      · cases hm

theorem bool_read (p : Par) (ht : p.ty = .bool) (n : Node) : p.read n = none ∨ ∃ b, p.read n = some (.bool b) := by
  unfold Par.read
  cases p.given n with
  | none => exact Or.inl rfl
  | some m =>
    rw [Option.bind_some, ht]
    cases m with
    | val ty t => cases ty <;> first | exact Or.inr ⟨_, rfl⟩ | exact Or.inl rfl
    | obj _ => exact Or.inl rfl
    | arr _ => exact Or.inl rfl

theorem flt_read (p : Par) (ht : p.ty = .flt) (n : Node) : p.read n = none ∨ ∃ t, p.read n = some (.flt t) := by
  unfold Par.read
  cases p.given n with
  | none => exact Or.inl rfl
  | some m =>
    rw [Option.bind_some, ht]
    cases m with
    | val ty t => cases ty <;> first | exact Or.inr ⟨_, rfl⟩ | exact Or.inl rfl
    | obj _ => exact Or.inl rfl
    | arr _ => exact Or.inl rfl

theorem text_read (p : Par) (ht : p.ty = .text) (n : Node) : p.read n = none ∨ ∃ t, p.read n = some (.text t) := by
  unfold Par.read
  cases p.given n with
  | none => exact Or.inl rfl
  | some m =>
    have hv : Ty.value .text m = (textOf m).map .text := by unfold Ty.value; rfl
    rw [Option.bind_some, ht, hv]
    cases textOf m with
    | none => exact Or.inl rfl
    | some t => exact Or.inr ⟨t, rfl⟩

end Lms.Reports
