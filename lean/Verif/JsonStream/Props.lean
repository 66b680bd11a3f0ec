import Verif.JsonStream.Model
import Verif.Json.Props

/-!
# What the parser understands of a request, given the requests before it
-/

namespace Lms.JsonStream

open Lms Lms.Json

/-! ## The model agrees with the one of a new parser -/

theorem asm_assemble (ts : List Tok) : ∀ (root : Node) (stack : List (Str × Node)) (name : Str) (ds : List Datum),
    (asm root stack name ts ds).map (fun r => (r.ok, r.root)) = assemble root stack name ts ds := by
  intro root stack name ds
  fun_induction asm root stack name ts ds <;> (rw [assemble.eq_def]) <;> simp_all [Outcome.map]

/-- A new parser reads a text as `Verif.Json.Model` has it. -/
theorem request_init (text : Str) :
    (request Parser.init text).map (·.1) = parse (.obj []) text := by
  unfold request parse
  simp only [Parser.init, List.nil_append]
  rw [← asm_assemble]
  unfold lex
  cases asm (.obj []) [] [] (tok none [] (strip (Char.ofNat 0) ⟨false, 0, false⟩ text)).1
    (tok none [] (strip (Char.ofNat 0) ⟨false, 0, false⟩ text)).2 <;> rfl

/-! ## The balance of the two queues -/

/-- How many data the tokens stand for. -/
def need : List Tok → Nat
  | [] => 0
  | .value :: ts => need ts + 1
  | .unknown :: ts => need ts + 1
  | _ :: ts => need ts

theorem need_append (a b : List Tok) : need (a ++ b) = need a + need b := by
  induction a with
  | nil => simp [need]
  | cons t a ih => cases t <;> simp [need, ih] <;> omega

theorem flush_balanced (buf : Str) : need (flush buf).1 = (flush buf).2.length := by
  unfold flush
  split
  · rfl
  · split <;> rfl

theorem structural_need {c : Char} {t : Tok} (h : structural c = some t) : need [t] = 0 := by
  unfold structural at h
  repeat' split at h
  all_goals first
    | (simp only [Option.some.injEq] at h; subst h; rfl)
    | simp at h

theorem tok_balanced (st : Option (Str × Char)) (buf s : Str) : need (tok st buf s).1 = (tok st buf s).2.length := by
  fun_induction tok st buf s with
  | case1 => rfl
  | case2 buf c r t ht ih =>
    simp only [cat, need_append, List.length_append, flush_balanced, structural_need ht, ih, List.length_nil]
  | case3 buf r ht ih => exact ih
  | case4 buf c ht hq => exact flush_balanced _
  | case5 buf c r ht hq hr ih => exact ih
  | case6 buf s c1 => simp [cat, need_append, need, flush_balanced]
  | case7 buf s c1 c2 r hc ih => simp [cat, need_append, need, flush_balanced, ih]; omega
  | case8 buf s c1 c2 r hc ih => exact ih

/-- One text puts as many data into the queue as its tokens stand for. -/
theorem lex_balanced (text : Str) : need (lex text).1 = (lex text).2.length := tok_balanced _ _ _

/-- `assemble` never reads from an empty queue if there are enough data, never loses a surplus of data, and on success takes
all tokens and exactly their data. -/
theorem asm_queues (ts : List Tok) : ∀ (root : Node) (stack : List (Str × Node)) (name : Str) (ds : List Datum),
    need ts ≤ ds.length → ∃ r, asm root stack name ts ds = .ok r ∧ ds.length + need r.toks ≤ r.data.length + need ts ∧
      (r.ok = true → r.toks = [] ∧ r.data = ds.drop (need ts)) := by
  intro root stack name ds
  fun_induction asm root stack name ts ds <;> intro hn
  all_goals simp only [need, List.length_cons, List.length_nil] at hn ⊢
  all_goals first
    | omega
    | (refine ⟨_, rfl, ?_, ?_⟩ <;> simp [need] <;> omega)
    | (rename_i ih; exact ih hn)
    | (rename_i ih
       obtain ⟨r, h1, h2, h3⟩ := ih (by omega)
       exact ⟨r, h1, by omega, fun hk => ⟨(h3 hk).1, by rw [(h3 hk).2]; simp⟩⟩)

/-! ## Histories -/

/-- Enough data for the tokens. -/
def Sound (p : Parser) : Prop := need p.toks ≤ p.data.length

theorem request_queues (p : Parser) (h : Sound p) (text : Str) :
    ∃ r p', request p text = .ok (r, p') ∧ p.data.length + need p'.toks ≤ p'.data.length + need p.toks ∧
      (r.1 = true → p'.toks = [] ∧ p'.data.length + need p.toks = p.data.length) := by
  have hb := lex_balanced text
  have hs : need p.toks ≤ p.data.length := h
  obtain ⟨r, h1, h2, h3⟩ := asm_queues (p.toks ++ (lex text).1) (.obj []) [] [] (p.data ++ (lex text).2)
    (by rw [need_append, List.length_append]; omega)
  refine ⟨(r.ok, r.root), ⟨r.toks, r.data⟩, by simp [request, h1], ?_, ?_⟩
  · rw [need_append, List.length_append] at h2; show _ + need r.toks ≤ r.data.length + _; omega
  · intro hk
    obtain ⟨h4, h5⟩ := h3 hk
    refine ⟨h4, ?_⟩
    show r.data.length + _ = _
    rw [h5, List.length_drop, List.length_append, need_append]; omega

/-- Surplus data stay. -/
theorem requests_queues (ts : List Str) : ∀ (p : Parser), Sound p → ∃ rs p', requests p ts = .ok (rs, p') ∧
    p.data.length + need p'.toks ≤ p'.data.length + need p.toks := by
  induction ts with
  | nil => intro p _; exact ⟨[], p, rfl, by omega⟩
  | cons t ts ih =>
    intro p h
    have hs : need p.toks ≤ p.data.length := h
    obtain ⟨r, p1, e1, h1, _⟩ := request_queues p h t
    obtain ⟨rs, p2, e2, h2⟩ := ih p1 (by unfold Sound; omega)
    exact ⟨r :: rs, p2, by simp [requests, e1, e2], by omega⟩

/-- **C74.**  Whatever is sent, in any number of requests, reading it is never undefined. -/
theorem reading_is_defined (ts : List Str) : ∃ rs p, requests Parser.init ts = .ok (rs, p) ∧ rs.length = ts.length := by
  have main : ∀ (ts : List Str) (p : Parser), Sound p → ∃ rs p', requests p ts = .ok (rs, p') ∧ rs.length = ts.length := by
    intro ts
    induction ts with
    | nil => intro p _; exact ⟨[], p, rfl, rfl⟩
    | cons t ts ih =>
      intro p h
      have hs : need p.toks ≤ p.data.length := h
      obtain ⟨r, p1, e1, h1, _⟩ := request_queues p h t
      obtain ⟨rs, p2, e2, h2⟩ := ih p1 (by unfold Sound; omega)
      exact ⟨r :: rs, p2, by simp [requests, e1, e2], by simp [h2]⟩
  exact main ts _ (by simp [Sound, Parser.init, need])

/-- A new parser also never reads from an empty queue: every text has a result. -/
theorem parse_defined (text : Str) : ∃ b n, parse (.obj []) text = .ok (b, n) := by
  obtain ⟨r, p, e, _⟩ := request_queues Parser.init (by simp [Sound, Parser.init, need]) text
  refine ⟨r.1, r.2, ?_⟩
  rw [← request_init, e]; rfl

/-- The text is understood by a new parser. -/
def Accepted (text : Str) : Prop := ∃ n, parse (.obj []) text = .ok (true, n)

/-- **C74.**  As long as every request so far could be read by itself, a request is read as if it were alone. -/
theorem understood_alone (ts : List Str) (t : Str) (h : ∀ u ∈ ts, Accepted u) :
    ∃ rs p, requests Parser.init (ts ++ [t]) = .ok (rs, p) ∧
      rs.map Outcome.ok = (ts ++ [t]).map (parse (.obj [])) := by
  induction ts with
  | nil =>
    obtain ⟨r, p, e, _⟩ := request_queues Parser.init (by simp [Sound, Parser.init, need]) t
    refine ⟨[r], p, by simp [requests, e], ?_⟩
    have := request_init t
    rw [e] at this
    simp [← this]
  | cons u ts ih =>
    obtain ⟨rs, p, e, hr⟩ := ih (fun x hx => h x (by simp [hx]))
    obtain ⟨n, hn⟩ := h u (by simp)
    obtain ⟨r, p1, e1, _, h2⟩ := request_queues Parser.init (by simp [Sound, Parser.init, need]) u
    have h3 := request_init u
    rw [e1, hn] at h3
    simp only [Outcome.map_ok, Outcome.ok.injEq] at h3
    obtain ⟨h4, h5⟩ := h2 (by rw [h3])
    have hp : p1 = Parser.init := by
      cases p1 with
      | mk a b =>
        simp only [Parser.init, List.length_nil, need] at h4 h5
        have : b = [] := List.length_eq_zero_iff.1 (by omega)
        rw [this, h4]; rfl
    refine ⟨r :: rs, p, by simp [requests, e1, hp, e], ?_⟩
    simp only [List.map_cons, List.cons_append, hr, h3, hn]

example : Accepted "{\"events\":[]}".toList := by
  have := parse_write tight (.obj [("events".toList, .arr [])]) ⟨⟨by
    intro pre post h
    have : '"' ∈ "events".toList := by rw [h]; simp
    exact absurd this (by decide), by decide⟩, trivial, trivial⟩
  exact ⟨_, this⟩

/-! ## A refused request is carried out by the next one -/

theorem asm_extra (ts : List Tok) : ∀ (root : Node) (stack : List (Str × Node)) (name : Str) (ds ex : List Datum),
    need ts ≤ ds.length → asm root stack name ts (ds ++ ex) =
      (asm root stack name ts ds).map fun r => { r with data := r.data ++ ex } := by
  intro root stack name ds ex
  fun_induction asm root stack name ts ds <;> intro hn <;> simp only [need, List.length_cons, List.length_nil] at hn
  all_goals first
    | omega
    | skip
  all_goals (rw [asm.eq_def]; simp_all [Outcome.map])

theorem lex_write (f : Format) (n : Node) (h : Good n) : lex (write f 0 n) = toks n := by
  unfold lex
  rw [strip_write f n h]
  have e := tok_write 0 [] (by intro c hc; simp at hc) n h
  rw [List.append_nil] at e
  rw [e]; simp [tok, cat_nil]

theorem obj_at_root (l0 l : List (Str × Node)) (ts : List Tok) (ds : List Datum) :
    assemble (.obj l0) [] [] ((toks (.obj l)).1 ++ ts) ((toks (.obj l)).2 ++ ds) = assemble (.obj (l0 ++ l)) [] [] ts ds := by
  simp only [toks, cat, List.singleton_append, List.nil_append, List.append_nil, List.cons_append, List.append_assoc]
  rw [assemble.eq_def]
  simp only
  rw [asm_members (.obj l0) [] [] true l l0 (.objEnd :: ts) ds (by simp), assemble.eq_def]

/-- A character that is no JSON by itself and not part of a number. -/
def Stray (c : Char) : Prop :=
  isNumber c = false ∧ structural c = none ∧ isBlank c = false ∧ c ≠ '"' ∧ c ≠ '/' ∧ c ≠ '*' ∧ c ≠ '\\'

theorem lex_stray (c : Char) (hc : Stray c) (f : Format) (l : List (Str × Node)) (h : Good (.obj l)) :
    lex (c :: write f 0 (.obj l)) = (.unknown :: (toks (.obj l)).1, (.str, [c]) :: (toks (.obj l)).2) := by
  obtain ⟨h1, h2, h3, h4, h5, h6, h7⟩ := hc
  have hs := strips_cons (strips_char c h4 h5 h6 h7) (strips_write f 0 0 (.obj l) h)
  obtain ⟨c1, _, e⟩ := hs (Char.ofNat 0) [] (by decide)
  have e' : strip (Char.ofNat 0) ⟨false, 0, false⟩ (c :: write f 0 (.obj l)) = c :: write tight 0 (.obj l) := by
    rw [List.append_nil] at e
    rw [show (⟨false, 0, false⟩ : WS) = idle from rfl, e]
    simp [strip, h3]
  unfold lex
  rw [e']
  have ew := tok_write 0 [] (by intro c hc; simp at hc) (.obj l) h
  rw [List.append_nil] at ew
  obtain ⟨r, hr⟩ : ∃ r, write tight 0 (.obj l) = '{' :: r := ⟨_, by simp only [write, List.cons_append]; rfl⟩
  rw [hr] at ew ⊢
  rw [tok.eq_def]
  simp only [h2, if_neg h4]
  rw [if_neg (by simp), tok_struct '{' .objBegin (by decide), cat_assoc, ← tok_struct0 '{' .objBegin (by decide), ew]
  have hi : interpret [c] = none := by
    unfold interpret
    simp only [List.map_cons, List.map_nil]
    rw [if_neg (by intro hh; exact absurd (congrArg List.length hh) (by simp only [List.length_singleton]; decide)),
      if_neg (by intro hh; exact absurd (congrArg List.length hh) (by simp only [List.length_singleton]; decide)),
      if_neg (by intro hh; exact absurd (congrArg List.length hh) (by simp only [List.length_singleton]; decide)), if_neg (by simp [h1])]
  simp [flush, hi, cat, tok]

/-- **C74 (recorded exception).**  A request that is refused because of one stray character before it is not lost: the next
request, whatever it is, is read behind it, so the refused one is carried out and the other one's members come second. -/
theorem refused_request_is_read_later (c : Char) (hc : Stray c) (f g : Format) (l l' : List (Str × Node)) (h : Good (.obj l))
    (h' : Good (.obj l')) :
    requests Parser.init [c :: write f 0 (.obj l), write g 0 (.obj l')] =
      .ok ([(false, .obj []), (true, .obj (l ++ l'))], Parser.init) := by
  have e1 : request Parser.init (c :: write f 0 (.obj l)) = .ok ((false, .obj []), ⟨(toks (.obj l)).1, (toks (.obj l)).2⟩) := by
    unfold request
    rw [lex_stray c hc f l h]
    simp only [Parser.init, List.nil_append]
    rw [asm.eq_def]
    simp [rootOf]
  obtain ⟨q, hq⟩ : ∃ q : Parser, q = ⟨(toks (.obj l)).1, (toks (.obj l)).2⟩ := ⟨_, rfl⟩
  have hb : need q.toks = q.data.length := by
    have := lex_balanced (write f 0 (.obj l))
    rw [lex_write f _ h] at this
    rw [hq]; exact this
  obtain ⟨r, p', e2, _, h3⟩ := request_queues q (by unfold Sound; omega) (write g 0 (.obj l'))
  have e3 : (request q (write g 0 (.obj l'))).map (·.1) = .ok (true, .obj (l ++ l')) := by
    have := asm_assemble (q.toks ++ (lex (write g 0 (.obj l'))).1) (.obj []) [] [] (q.data ++ (lex (write g 0 (.obj l'))).2)
    rw [lex_write g _ h', hq] at this
    have e4 := obj_at_root [] l (toks (.obj l')).1 (toks (.obj l')).2
    have e5 := obj_at_root ([] ++ l) l' [] []
    rw [List.append_nil, List.append_nil] at e5
    rw [e4, e5] at this
    unfold request
    rw [lex_write g _ h', hq]
    rw [show assemble (.obj ([] ++ l ++ l')) [] [] [] [] = .ok (true, .obj (l ++ l')) by simp [assemble, rootOf]] at this
    cases ha : asm (.obj []) [] [] ((toks (.obj l)).1 ++ (toks (.obj l')).1) ((toks (.obj l)).2 ++ (toks (.obj l')).2) with
    | ok x => rw [ha] at this; simpa using this
    | ub => rw [ha] at this; simp at this
    | hang => rw [ha] at this; simp [Outcome.map] at this
  rw [e2] at e3
  simp only [Outcome.map_ok, Outcome.ok.injEq] at e3
  obtain ⟨h4, h5⟩ := h3 (by rw [e3])
  have hp : p' = Parser.init := by
    cases p' with
    | mk a b =>
      simp only at h4 h5
      have : b = [] := List.length_eq_zero_iff.1 (by omega)
      rw [this, h4]; rfl
  rw [hq] at e2
  simp [requests, e1, e2, e3, hp]

example : Stray '?' := by unfold Stray; decide

/-! ## A parser out of step -/

/-- There are more data than the tokens stand for. -/
def Misaligned (p : Parser) : Prop := need p.toks < p.data.length

/-- **C74 (recorded exception).**  A request with a member whose name is no string leaves the parser out of step, and no
later request, whatever it is, brings it back. -/
theorem out_of_step_for_good (ts : List Str) :
    ∃ rs p, requests Parser.init ("{1:2}".toList :: ts) = .ok (rs, p) ∧ Misaligned p ∧ rs.head?.map (·.1) = some false := by
  obtain ⟨r, p, e, hm, hr⟩ : ∃ r p, request Parser.init "{1:2}".toList = .ok (r, p) ∧ Misaligned p ∧ r.1 = false := by
    refine ⟨(false, .obj []), ⟨[.value, .objEnd], [(.num, ['1']), (.num, ['2'])]⟩, ?_, by unfold Misaligned; decide, rfl⟩
    have hl : lex "{1:2}".toList = ([.objBegin, .value, .sepName, .value, .objEnd], [(.num, ['1']), (.num, ['2'])]) := by
      decide +kernel
    unfold request
    rw [hl]
    simp [Parser.init, asm, rootOf]
  have hm' : need p.toks < p.data.length := hm
  obtain ⟨rs, p', e', h'⟩ := requests_queues ts p (by unfold Sound; omega)
  refine ⟨r :: rs, p', ?_, by unfold Misaligned; omega, by simp [hr]⟩
  rw [requests, e, Outcome.bind_ok, e']; rfl

theorem toksMembers_append (first : Bool) (l l' : List (Str × Node)) :
    toksMembers first (l ++ l') = cat (toksMembers first l) (toksMembers (first && l.isEmpty) l') := by
  induction l generalizing first with
  | nil => simp [toksMembers, nil_cat]
  | cons e l ih =>
    obtain ⟨k, n⟩ := e
    simp [toksMembers, ih, cat_assoc]

/-- **C74 (recorded exception).**  Out of step, the last string or number of a request has no effect on how that request
is read: it waits in the queue for the next one. -/
theorem last_value_not_seen (p : Parser) (h : Misaligned p) (f : Format) (l : List (Str × Node)) (k : Str) (t : VType)
    (a b : Str) (ha : Good (.obj (l ++ [(k, .val t a)]))) (hb : Good (.obj (l ++ [(k, .val t b)]))) :
    (request p (write f 0 (.obj (l ++ [(k, .val t a)])))).map (·.1) =
      (request p (write f 0 (.obj (l ++ [(k, .val t b)])))).map (·.1) := by
  have hm : need p.toks < p.data.length := h
  have key : ∀ x, Good (.obj (l ++ [(k, .val t x)])) → ∃ T D d, lex (write f 0 (.obj (l ++ [(k, .val t x)]))) = (T, D ++ [d]) ∧
      T = (toks (.obj (l ++ [(k, .val t a)]))).1 ∧ D = (toksMembers true l).2 ++ [(.str, k)] := by
    intro x hx
    rw [lex_write f _ hx]
    refine ⟨_, _, (t, if t = .str then escape x else x), ?_, rfl, rfl⟩
    simp only [toks, toksMembers_append, toksMembers, cat]
    split <;> simp
  obtain ⟨T, D, d, e1, hT, hD⟩ := key a ha
  obtain ⟨T', D', d', e2, hT', hD'⟩ := key b hb
  have hn : need T = D.length + 1 := by
    have := lex_balanced (write f 0 (.obj (l ++ [(k, .val t a)])))
    rw [e1] at this; simpa using this
  unfold request
  rw [e1, e2]
  subst hT hD hT' hD'
  have hle : need (p.toks ++ (toks (.obj (l ++ [(k, .val t a)]))).1) ≤
      (p.data ++ ((toksMembers true l).2 ++ [(VType.str, k)])).length := by
    rw [need_append, List.length_append]; omega
  simp only [← List.append_assoc] at hle ⊢
  rw [asm_extra _ _ _ _ _ _ hle, asm_extra _ _ _ _ _ _ hle]
  cases asm (.obj []) [] [] (p.toks ++ (toks (.obj (l ++ [(k, .val t a)]))).1)
    (p.data ++ (toksMembers true l).2 ++ [(VType.str, k)]) <;> rfl

/-- What the requests of a run gave, as a comparison. -/
def givesAll (o : Outcome (List (Bool × Node) × Parser)) (want : List (Bool × String)) : Bool :=
  match o with
  | .ok (rs, _) => rs.map (fun r => (r.1, write tight 0 r.2)) == want.map fun w => (w.1, w.2.toList)
  | _ => false

/-- **C74 (recorded exception).**  A typing error in one request makes the two good ones after it fail as well, and the
fourth request is answered with what the second one asked. -/
theorem typing_error_delays_requests :
    givesAll (requests Parser.init ["{\"events\":[tru]}".toList, "{\"events\":[2]}".toList, "{\"events\":[3]}".toList,
        "{\"events\":[4]}".toList])
      [(false, "{}"), (false, "{}"), (false, "{}"), (true, "{\"events\":[2],\"events\":[3],\"events\":[4]}")] = true := by
  decide +kernel

end Lms.JsonStream
