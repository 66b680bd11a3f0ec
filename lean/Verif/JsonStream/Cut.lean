import Verif.JsonStream.Props

/-!
# What the parser understands of a request that arrives cut off

The controller reads a connection once (src/Controller.cpp:143), into a buffer of 16384 bytes of which the last stays zero; what
it gets is some beginning of what the client sent: up to a packet boundary, up to 16383 bytes, or up to a zero byte.
-/

namespace Lms.JsonStream

open Lms Lms.Json

/-! ## Tokens of a beginning -/

theorem strip_cut (q : Str) (p : Str) (c0 : Char) (w : WS) :
    ∃ a b c, strip c0 w p = a ++ b ∧ strip c0 w (p ++ q) = a ++ c ∧ ∀ x ∈ b, structural x = none := by
  fun_induction strip c0 w p with
  | case1 c0 w => exact ⟨[], [], _, rfl, rfl, by simp⟩
  | case2 c0 w c1 w1 w2 =>
    by_cases hs : structural c1 = none
    · exact ⟨[], keep w2 c1, _, rfl, rfl, by
        intro x hx
        unfold keep at hx
        repeat' split at hx
        all_goals simp at hx
        all_goals (rw [hx]; exact hs)⟩
    · have h1 : c1 ≠ '/' := fun h => hs (by rw [h]; decide)
      have h2 : c1 ≠ '*' := fun h => hs (by rw [h]; decide)
      refine ⟨keep w2 c1, [], ?_⟩
      cases q with
      | nil => exact ⟨[], by simp, by simp [strip, w1, w2], by simp⟩
      | cons c2 q => exact ⟨_, by simp, by simp [strip, h1, h2, w1, w2]; rfl, by simp⟩
  | case3 c0 w c1 c2 r w1 hc ih =>
    obtain ⟨a, b, c, e1, e2, h⟩ := ih
    refine ⟨a, b, c, e1, ?_, h⟩
    rw [← e2, List.cons_append, List.cons_append, strip]
    exact if_pos hc
  | case4 c0 w c1 c2 r w1 hc1 hc ih =>
    obtain ⟨a, b, c, e1, e2, h⟩ := ih
    refine ⟨a, b, c, e1, ?_, h⟩
    rw [← e2, List.cons_append, List.cons_append, strip]
    exact (if_neg hc1).trans (if_pos hc)
  | case5 c0 w c1 c2 r w1 hc1 hc2 hc ih =>
    obtain ⟨a, b, c, e1, e2, h⟩ := ih
    refine ⟨a, b, c, e1, ?_, h⟩
    rw [← e2, List.cons_append, List.cons_append, strip]
    exact (if_neg hc1).trans ((if_neg hc2).trans (if_pos hc))
  | case6 c0 w c1 c2 r w1 hc1 hc2 hc3 w2 ih =>
    obtain ⟨a, b, c, e1, e2, h⟩ := ih
    refine ⟨keep w2 c1 ++ a, b, c, by rw [e1, List.append_assoc], ?_, h⟩
    rw [List.append_assoc, ← e2, List.cons_append, List.cons_append, strip]
    exact (if_neg hc1).trans ((if_neg hc2).trans (if_neg hc3))

/-- Only values and unknown words. -/
def Flat (X : List Tok) : Prop := ∀ x ∈ X, x = .value ∨ x = .unknown

theorem flat_append {a b : List Tok} (h : Flat a) (h' : Flat b) : Flat (a ++ b) := by
  intro x hx
  rcases List.mem_append.1 hx with h1 | h1
  · exact h x h1
  · exact h' x h1

theorem flat_flush (buf : Str) : Flat (flush buf).1 := by
  unfold flush
  intro x hx
  split at hx
  · simp at hx
  · split at hx <;> simp at hx <;> simp [hx]

theorem flat_value : Flat [.value] := by intro x hx; simp at hx; exact Or.inl hx

theorem tok_flat (st : Option (Str × Char)) (buf s : Str) (h : ∀ x ∈ s, structural x = none) : Flat (tok st buf s).1 := by
  fun_induction tok st buf s with
  | case1 => intro x hx; simp at hx
  | case2 buf c r t ht ih => rw [h c (by simp)] at ht; simp at ht
  | case3 buf r ht ih => exact ih (fun x hx => h x (by simp [hx]))
  | case4 buf c ht hq => exact flat_flush _
  | case5 buf c r ht hq hr ih => exact ih (fun x hx => h x (by simp [hx]))
  | case6 buf s c1 => exact flat_append (flat_append (by intro x hx; simp at hx) (flat_flush _)) flat_value
  | case7 buf s c1 c2 r hc ih =>
    exact flat_append (flat_append (flat_append (by intro x hx; simp at hx) (flat_flush _)) flat_value)
      (ih (fun x hx => h x (by simp [hx])))
  | case8 buf s c1 c2 r hc ih => exact ih (fun x hx => h x (by simp [hx]))

/-- Two texts that begin alike, the first of which goes on without structure. -/
structure Alike (A B : List Tok × List Datum) : Prop where
  split : ∃ T D X E Y F, A = (T ++ X, D ++ E) ∧ B = (T ++ Y, D ++ F) ∧ need T = D.length ∧ Flat X

theorem alike_flat {A B : List Tok × List Datum} (h : Flat A.1) : Alike A B :=
  ⟨[], [], A.1, A.2, B.1, B.2, rfl, rfl, rfl, h⟩

theorem alike_cat {C A B : List Tok × List Datum} (hC : need C.1 = C.2.length) (h : Alike A B) : Alike (cat C A) (cat C B) := by
  obtain ⟨T, D, X, E, Y, F, e1, e2, hn, hf⟩ := h
  refine ⟨C.1 ++ T, C.2 ++ D, X, E, Y, F, ?_, ?_, ?_, hf⟩
  · simp [cat, e1]
  · simp [cat, e2]
  · rw [need_append, List.length_append, hC, hn]

theorem tok_cut (b c : Str) (hb : ∀ x ∈ b, structural x = none) (a : Str) : ∀ (st : Option (Str × Char)) (buf : Str),
    Alike (tok st buf (a ++ b)) (tok st buf (a ++ c)) := by
  induction a with
  | nil => intro st buf; exact alike_flat (tok_flat st buf b hb)
  | cons x a ih =>
    intro st buf
    cases st with
    | none =>
      cases hx : structural x with
      | some t =>
        rw [List.cons_append, List.cons_append, tok_struct x t hx, tok_struct x t hx]
        refine alike_cat ?_ (ih none [])
        simp only [cat, need_append, List.length_append, flush_balanced, structural_need hx, List.length_nil]
      | none =>
        by_cases hq : x = '"'
        · rw [List.cons_append, List.cons_append]
          have : ∀ r, tok none buf (x :: r) = tok (some ([], Char.ofNat 0)) buf r := by
            intro r; rw [tok.eq_def]; simp only [hx, if_pos hq]
          rw [this, this]
          exact ih _ _
        · by_cases hn : a ++ b = []
          · refine alike_flat (tok_flat _ _ _ ?_)
            rw [List.cons_append, hn]; simpa using hx
          · by_cases hn' : a ++ c = []
            · refine alike_flat (tok_flat _ _ _ ?_)
              rw [List.append_eq_nil_iff] at hn'
              rw [hn'.1]
              intro y hy
              rcases List.mem_cons.1 hy with rfl | hy
              · exact hx
              · exact hb y hy
            · have : ∀ r, r ≠ [] → tok none buf (x :: r) = tok none (buf ++ [x]) r := by
                intro r hr; rw [tok.eq_def]; simp [hx, hq, hr]
              rw [List.cons_append, List.cons_append, this _ hn, this _ hn']
              exact ih _ _
    | some sc =>
      obtain ⟨s, c1⟩ := sc
      rw [List.cons_append, List.cons_append]
      by_cases hc : c1 ≠ '\\' ∧ x = '"'
      · have : ∀ r, tok (some (s, c1)) buf (x :: r) =
            cat (cat (cat ([], [(.str, s)]) (flush buf)) ([.value], [])) (tok none [] r) := by
          intro r; rw [tok.eq_def]; simp only [if_pos hc]
        rw [this, this]
        refine alike_cat ?_ (ih _ _)
        simp [cat, need_append, need, flush_balanced]
      · have : ∀ r, tok (some (s, c1)) buf (x :: r) = tok (some (s ++ [x], x)) buf r := by
          intro r; rw [tok.eq_def]; simp only [if_neg hc]
        rw [this, this]
        exact ih _ _

/-! ## Members are only ever added -/

theorem rootOf_top (root : Node) (m : Str) (p : Node) (e : Str × Node) (s : List (Str × Node)) :
    rootOf root ((m, p) :: e :: s) = rootOf root (e :: s) := by
  simp [rootOf, List.getLast?_cons_cons]

theorem rootOf_add (root : Node) (m : Str) (p : Node) (s : List (Str × Node)) (k : Str) (v : Node) (M : List (Str × Node))
    (h : rootOf root ((m, p) :: s) = .obj M) :
    ∃ V, rootOf root ((m, addTo p k v) :: s) = .obj (M ++ V) ∧ (V = [] ∨ V = [(k, v)]) := by
  cases s with
  | nil =>
    simp only [rootOf, List.getLast?_singleton] at h ⊢
    subst h
    exact ⟨[(k, v)], rfl, Or.inr rfl⟩
  | cons e s =>
    rw [rootOf_top] at h ⊢
    exact ⟨[], by rw [h, List.append_nil], Or.inl rfl⟩

theorem assemble_adds (ts : List Tok) (root : Node) (stack : List (Str × Node)) (name : Str) (ds : List Datum) :
    ∀ (M : List (Str × Node)) (b : Bool) (n : Node), rootOf root stack = .obj M → assemble root stack name ts ds = .ok (b, n) →
      ∃ W, n = .obj (M ++ W) := by
  fun_induction assemble root stack name ts ds <;> intro M b n hM h
  all_goals try rw [rootOf_top] at hM
  all_goals first
    | (simp only [Outcome.ok.injEq, Prod.mk.injEq] at h
       refine ⟨[], ?_⟩
       rw [← h.2, List.append_nil]
       first
         | exact hM
         | (simpa [rootOf] using hM))
    | (simp at h; done)
    | (simp [rootOf] at hM; done)
    | (rename_i ih
       refine ih M b n ?_ h
       first
         | exact hM
         | (rw [rootOf_top]; exact hM)
         | (simpa [rootOf] using hM))
    | (rename_i ih
       obtain ⟨V, hV, _⟩ := rootOf_add _ _ _ _ _ _ _ hM
       obtain ⟨W, hW⟩ := ih _ _ _ hV h
       exact ⟨V ++ W, by rw [hW, List.append_assoc]⟩)

/-- Values without structure only add values. -/
theorem assemble_flat (X : List Tok) : ∀ (root : Node) (stack : List (Str × Node)) (name : Str) (E : List Datum)
    (M : List (Str × Node)) (n : Node), Flat X → rootOf root stack = .obj M →
    assemble root stack name X E = .ok (true, n) → ∃ V, n = .obj (M ++ V) ∧ ∀ e ∈ V, isVal e.2 = true := by
  induction X with
  | nil =>
    intro root stack name E M n _ hM h
    simp only [assemble, Outcome.ok.injEq, Prod.mk.injEq, true_and] at h
    exact ⟨[], by rw [← h, hM, List.append_nil], by simp⟩
  | cons x X ih =>
    intro root stack name E M n hf hM h
    have hX : Flat X := fun y hy => hf y (by simp [hy])
    rcases hf x (by simp) with rfl | rfl
    · have hs : X.head? ≠ some .sepName := by
        intro hh
        cases X with
        | nil => simp at hh
        | cons y X =>
          simp only [List.head?_cons, Option.some.injEq] at hh
          rcases hX y (by simp) with h1 | h1 <;> (rw [hh] at h1; simp at h1)
      cases E with
      | nil => cases X <;> simp [assemble] at h
      | cons d E =>
        cases stack with
        | nil =>
          simp only [rootOf, List.getLast?_nil] at hM
          subst hM
          rw [assemble.eq_def] at h
          split at h
          all_goals first
            | (rename_i h1 _; simp at h1; done)
            | skip
          all_goals simp_all
        | cons e s =>
          obtain ⟨m, p⟩ := e
          rw [assemble_value root m p s name X d E hs] at h
          obtain ⟨V, hV, hVv⟩ := rootOf_add root m p s name (valueOf d) M hM
          obtain ⟨W, hW, hWv⟩ := ih _ _ _ _ _ _ hX hV h
          refine ⟨V ++ W, by rw [hW, List.append_assoc], ?_⟩
          intro e he
          rcases List.mem_append.1 he with h1 | h1
          · rcases hVv with rfl | rfl
            · simp at h1
            · simp only [List.mem_singleton] at h1
              rw [h1]; unfold valueOf; split <;> rfl
          · exact hWv e h1
    · cases E <;> simp [assemble] at h

/-- What a structural token does depends on the state only. -/
theorem structural_step (t : Tok) (h1 : t ≠ .value) (h2 : t ≠ .unknown) (root : Node) (stack : List (Str × Node)) (name : Str)
    (M : List (Str × Node)) (hM : rootOf root stack = .obj M) :
    (∃ r s nm M', rootOf r s = .obj M' ∧ ∀ ts ds, assemble root stack name (t :: ts) ds = assemble r s nm ts ds) ∨
      (∃ n, ∀ ts ds, assemble root stack name (t :: ts) ds = .ok (false, n)) := by
  cases t with
  | value => exact absurd rfl h1
  | unknown => exact absurd rfl h2
  | sepName => exact Or.inl ⟨root, stack, name, M, hM, fun ts ds => by rw [assemble.eq_def]⟩
  | sepNode => exact Or.inl ⟨root, stack, name, M, hM, fun ts ds => by rw [assemble.eq_def]⟩
  | objBegin =>
    cases stack with
    | nil =>
      simp only [rootOf, List.getLast?_nil] at hM; subst hM
      exact Or.inl ⟨.obj M, [(name, .obj M)], [], M, by simp [rootOf], fun ts ds => by rw [assemble.eq_def]⟩
    | cons e s => exact Or.inl ⟨root, (name, .obj []) :: e :: s, [], M, by rw [rootOf_top]; exact hM, fun ts ds => by rw [assemble.eq_def]⟩
  | arrBegin =>
    cases stack with
    | nil =>
      simp only [rootOf, List.getLast?_nil] at hM; subst hM
      exact Or.inr ⟨.obj M, fun ts ds => by rw [assemble.eq_def]⟩
    | cons e s => exact Or.inl ⟨root, (name, .arr []) :: e :: s, [], M, by rw [rootOf_top]; exact hM, fun ts ds => by rw [assemble.eq_def]⟩
  | objEnd =>
    cases stack with
    | nil => exact Or.inr ⟨root, fun ts ds => by rw [assemble.eq_def]⟩
    | cons e s =>
      obtain ⟨k, v⟩ := e
      cases v with
      | val a b => exact Or.inr ⟨_, fun ts ds => by rw [assemble.eq_def]⟩
      | arr l => exact Or.inr ⟨_, fun ts ds => by rw [assemble.eq_def]⟩
      | obj l =>
        cases s with
        | nil => exact Or.inl ⟨.obj l, [], name, l, rfl, fun ts ds => by rw [assemble.eq_def]⟩
        | cons e s =>
          obtain ⟨m, p⟩ := e
          rw [rootOf_top] at hM
          obtain ⟨V, hV, _⟩ := rootOf_add root m p s k (.obj l) M hM
          cases p with
          | val a b => exact Or.inr ⟨_, fun ts ds => by rw [assemble.eq_def]⟩
          | arr l' => exact Or.inl ⟨root, _, name, _, hV, fun ts ds => by rw [assemble.eq_def]⟩
          | obj l' => exact Or.inl ⟨root, _, name, _, hV, fun ts ds => by rw [assemble.eq_def]⟩
  | arrEnd =>
    cases stack with
    | nil => exact Or.inr ⟨root, fun ts ds => by rw [assemble.eq_def]⟩
    | cons e s =>
      obtain ⟨k, v⟩ := e
      cases v with
      | val a b => exact Or.inr ⟨_, fun ts ds => by rw [assemble.eq_def]⟩
      | obj l => exact Or.inr ⟨_, fun ts ds => by rw [assemble.eq_def]⟩
      | arr l =>
        cases s with
        | nil => simp [rootOf] at hM
        | cons e s =>
          obtain ⟨m, p⟩ := e
          rw [rootOf_top] at hM
          obtain ⟨V, hV, _⟩ := rootOf_add root m p s k (.arr l) M hM
          cases p with
          | val a b => exact Or.inr ⟨_, fun ts ds => by rw [assemble.eq_def]⟩
          | arr l' => exact Or.inl ⟨root, _, name, _, hV, fun ts ds => by rw [assemble.eq_def]⟩
          | obj l' => exact Or.inl ⟨root, _, name, _, hV, fun ts ds => by rw [assemble.eq_def]⟩

theorem value_at_root (M : List (Str × Node)) (name : Str) (ts : List Tok) (d : Datum) (ds : List Datum)
    (h : ts.head? ≠ some .sepName) : assemble (.obj M) [] name (.value :: ts) (d :: ds) = .ok (false, .obj M) := by
  rw [assemble.eq_def]
  split
  all_goals first
    | (rename_i h1 _; simp at h1; done)
    | skip
  all_goals simp_all

theorem flat_head {X : List Tok} (h : Flat X) : X.head? ≠ some .sepName := by
  intro hh
  cases X with
  | nil => simp at hh
  | cons y X =>
    simp only [List.head?_cons, Option.some.injEq] at hh
    rcases h y (by simp) with h1 | h1 <;> (rw [hh] at h1; simp at h1)

/-- Two token lists that begin alike give trees whose members begin alike, and the one without further structure has only
values in addition. -/
theorem assemble_cut (k : Nat) : ∀ (T : List Tok), T.length ≤ k → ∀ (D E F : List Datum) (X Y : List Tok) (root : Node)
    (stack : List (Str × Node)) (name : Str) (M : List (Str × Node)) (m n : Node), need T = D.length → Flat X →
    rootOf root stack = .obj M → assemble root stack name (T ++ X) (D ++ E) = .ok (true, m) →
    assemble root stack name (T ++ Y) (D ++ F) = .ok (true, n) →
    ∃ B V W, m = .obj (B ++ V) ∧ n = .obj (B ++ W) ∧ ∀ e ∈ V, isVal e.2 = true := by
  induction k with
  | zero =>
    intro T hT D E F X Y root stack name M m n hn hf hM h1 h2
    have : T = [] := List.length_eq_zero_iff.1 (by omega)
    subst this
    have : D = [] := List.length_eq_zero_iff.1 (by simpa [need] using hn.symm)
    subst this
    obtain ⟨V, hV, hv⟩ := assemble_flat X root stack name E M m hf hM h1
    obtain ⟨W, hW⟩ := assemble_adds Y root stack name F M true n hM h2
    exact ⟨M, V, W, hV, hW, hv⟩
  | succ k ih =>
    intro T hT D E F X Y root stack name M m n hn hf hM h1 h2
    cases T with
    | nil => exact ih [] (by simp) D E F X Y root stack name M m n hn hf hM h1 h2
    | cons t T =>
      simp only [List.length_cons] at hT
      by_cases hv : t = .value
      · subst hv
        cases D with
        | nil => simp [need] at hn
        | cons d D =>
          have hn' : need T = D.length := by simpa [need] using hn
          simp only [List.cons_append] at h1 h2
          by_cases hs : T.head? = some .sepName
          · cases T with
            | nil => simp at hs
            | cons t2 T =>
              simp only [List.head?_cons, Option.some.injEq] at hs
              subst hs
              simp only [List.cons_append, assemble] at h1 h2
              split at h1
              · simp at h1
              · rename_i hd
                rw [if_neg hd] at h2
                exact ih T (by simp only [List.length_cons] at hT; omega) D E F X Y root stack d.2 M m n
                  (by simpa [need] using hn') hf hM h1 h2
          · have hs1 : (T ++ X).head? ≠ some .sepName := by
              cases T with
              | nil => exact flat_head hf
              | cons t2 T => exact hs
            cases stack with
            | nil =>
              simp only [rootOf, List.getLast?_nil] at hM
              subst hM
              rw [value_at_root _ _ _ _ _ hs1] at h1
              simp at h1
            | cons e s =>
              obtain ⟨a, p⟩ := e
              by_cases hs2 : (T ++ Y).head? = some .sepName
              · cases T with
                | nil =>
                  have hD : D = [] := List.length_eq_zero_iff.1 (by simpa [need] using hn'.symm)
                  subst hD
                  have hfx : Flat (.value :: X) := by
                    intro y hy
                    rcases List.mem_cons.1 hy with rfl | hy
                    · exact Or.inl rfl
                    · exact hf y hy
                  obtain ⟨V, hV, hv⟩ := assemble_flat (.value :: X) root ((a, p) :: s) name (d :: E) M m hfx hM h1
                  obtain ⟨W, hW⟩ := assemble_adds _ _ _ _ _ M true n hM h2
                  exact ⟨M, V, W, hV, hW, hv⟩
                | cons t2 T => exact absurd hs2 hs
              · rw [assemble_value _ _ _ _ _ _ _ _ hs1] at h1
                rw [assemble_value _ _ _ _ _ _ _ _ hs2] at h2
                obtain ⟨V, hV, _⟩ := rootOf_add root a p s name (valueOf d) M hM
                exact ih T (by omega) D E F X Y _ _ _ _ m n hn' hf hV h1 h2
      · by_cases hu : t = .unknown
        · subst hu
          cases D with
          | nil => simp [need] at hn
          | cons d D => simp [assemble] at h1
        · have hn' : need T = D.length := by
            rw [← hn]; cases t <;> first | exact absurd rfl hv | exact absurd rfl hu | rfl
          rcases structural_step t hv hu root stack name M hM with ⟨r, s, nm, M', hM', hst⟩ | ⟨x, hx⟩
          · rw [List.cons_append, hst] at h1 h2
            exact ih T (by omega) D E F X Y r s nm M' m n hn' hf hM' h1 h2
          · rw [List.cons_append, hx] at h1
            simp at h1

/-! ## C75 -/

/-- The array under a name: the first member of that name, if it is an array. -/
def arrayUnder (k : Str) : Node → Option (List Node)
  | .obj l => match l.find? fun e => e.1 = k with
    | some (_, .arr a) => some a
    | _ => none
  | _ => none

/-- **C75.**  A request of which only a beginning arrives: if that can be read at all and has the array of events, they are the
events of the whole request, all of them; there is no beginning that carries a part of them. -/
theorem cut_request_all_or_nothing (sent got rest : Str) (hs : sent = got ++ rest) (k : Str) (n m : Node)
    (hn : parse (.obj []) sent = .ok (true, n)) (hm : parse (.obj []) got = .ok (true, m)) :
    arrayUnder k m = none ∨ arrayUnder k m = arrayUnder k n := by
  subst hs
  unfold parse at hn hm
  obtain ⟨a, b, c, e1, e2, hb⟩ := strip_cut rest got (Char.ofNat 0) ⟨false, 0, false⟩
  rw [e1] at hm
  rw [e2] at hn
  obtain ⟨T, D, X, E, Y, F, e3, e4, hnd, hf⟩ := tok_cut b c hb a none []
  simp only [e3, e4] at hm hn
  obtain ⟨B, V, W, rfl, rfl, hv⟩ := assemble_cut T.length T (Nat.le_refl _) D E F X Y _ _ _ [] m n hnd hf rfl hm hn
  simp only [arrayUnder, List.find?_append]
  cases hB : B.find? fun e => decide (e.1 = k) with
  | some e => right; simp [Option.or]
  | none =>
    left
    simp only [Option.none_or]
    cases hV : V.find? fun e => decide (e.1 = k) with
    | none => rfl
    | some e =>
      obtain ⟨x, y⟩ := e
      have := hv _ (List.mem_of_find?_eq_some hV)
      cases y <;> first | rfl | (simp [isVal] at this)

/-- Both ways happen: cut inside the second event nothing is carried out, and cut behind the array everything is. -/
theorem cut_request_examples :
    gives (parse (.obj []) "{\"events\":[{\"a\":1},{\"a\":".toList) true "{}".toList = true ∧
    gives (parse (.obj []) "{\"events\":[{\"a\":1},{\"a\":2}]".toList) true
      "{\"events\":[{\"a\":1},{\"a\":2}]}".toList = true ∧
    gives (parse (.obj []) "{\"events\":[{\"a\":1},{\"a\":2}],\"x\":tr".toList) false
      "{\"events\":[{\"a\":1},{\"a\":2}]}".toList = true := by
  refine ⟨?_, ?_, ?_⟩ <;> decide +kernel

end Lms.JsonStream
