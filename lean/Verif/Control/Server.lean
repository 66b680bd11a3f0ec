import Verif.Control.Report

/-!
# The server loop
-/

namespace Lms.Control

open Lms Lms.Json

theorem serveAll_append (cs ds : List (Option Str × (Nat → Env))) : ∀ s, serveAll s (cs ++ ds) = (serveAll s cs).bind fun t => serveAll t ds := by
  induction cs with
  | nil => intro s; rfl
  | cons c cs ih =>
    intro s
    rw [List.cons_append, serveAll, serveAll]
    cases serve s c.1 c.2 with
    | dies => rfl
    | ub => rfl
    | ok t => exact ih t

/-- What one connection does to the lists of the server. -/
theorem serve_lists {s s' : Server} {t : Option Str} {envs : Nat → Env} (h : serve s t envs = .ok s') :
    s'.next = s.next + 1 ∧
    ((s'.opened = s.next :: s.opened ∧ s'.replies = s.replies ∧ s'.c = s.c) ∨
     (s'.opened = s.opened ∧ ∃ r, s'.replies = s.replies ++ [(s.next, r)])) := by
  unfold serve at h
  cases t with
  | none => simp only [R.ok.injEq] at h; subst h; exact ⟨rfl, Or.inl ⟨rfl, rfl, rfl⟩⟩
  | some t =>
    simp only at h
    cases hr : R.ofOutcome (JsonStream.request s.parser t) with
    | dies => rw [hr] at h; simp [R.bind] at h
    | ub => rw [hr] at h; simp [R.bind] at h
    | ok r =>
      rw [hr] at h
      simp only [R.bind] at h
      split at h
      · simp only [R.ok.injEq] at h; subst h; exact ⟨rfl, Or.inl ⟨rfl, rfl, rfl⟩⟩
      · cases hp : processRequest s.c envs r.1.2 with
        | dies => rw [hp] at h; simp at h
        | ub => rw [hp] at h; simp at h
        | ok a =>
          rw [hp] at h
          simp only [R.ok.injEq] at h; subst h; exact ⟨rfl, Or.inr ⟨rfl, _, rfl⟩⟩

/-- **C76.**  Every connection is either answered, once, or left open without an answer. -/
theorem answered_once_or_left_open (cs : List (Option Str × (Nat → Env))) (s : Server) (h : serveAll Server.init cs = .ok s) :
    (s.opened ++ s.replies.map (·.1)).Perm (List.range cs.length) := by
  have main : ∀ (cs : List (Option Str × (Nat → Env))) (a b : Server) (n : Nat), a.next = n →
      (a.opened ++ a.replies.map (·.1)).Perm (List.range n) → serveAll a cs = .ok b →
      (b.opened ++ b.replies.map (·.1)).Perm (List.range (n + cs.length)) := by
    intro cs
    induction cs with
    | nil =>
      intro a b n _ hp h
      simp only [serveAll, R.ok.injEq] at h
      subst h; exact hp
    | cons c cs ih =>
      intro a b n hn hp h
      rw [serveAll] at h
      cases hs : serve a c.1 c.2 with
      | dies => rw [hs] at h; simp [R.bind] at h
      | ub => rw [hs] at h; simp [R.bind] at h
      | ok a1 =>
        rw [hs] at h
        have := ih a1 b (n + 1) (by rw [(serve_lists hs).1, hn]) ?_ h
        · rw [List.length_cons]
          have e : n + (cs.length + 1) = n + 1 + cs.length := by omega
          rw [e]; exact this
        · rw [List.range_succ]
          rcases (serve_lists hs).2 with ⟨e1, e2, _⟩ | ⟨e1, r, e2⟩
          · rw [e1, e2, hn, List.cons_append]
            exact (hp.cons n).trans (List.perm_append_singleton n _).symm
          · rw [e1, e2, hn, List.map_append, ← List.append_assoc]
            exact hp.append_right _
  have := main cs Server.init s 0 rfl (by simp [Server.init]) h
  rwa [Nat.zero_add] at this

theorem request_fresh {t : Str} {b : Bool} {n : Node} (h : parse (.obj []) t = .ok (b, n)) :
    ∃ p, JsonStream.request JsonStream.Parser.init t = .ok ((b, n), p) ∧ (b = true → p = JsonStream.Parser.init) := by
  obtain ⟨r, p, e, _, h2⟩ := JsonStream.request_queues JsonStream.Parser.init
    (by simp [JsonStream.Sound, JsonStream.Parser.init, JsonStream.need]) t
  have h3 := JsonStream.request_init t
  rw [e, h] at h3
  simp only [Outcome.map_ok, Outcome.ok.injEq] at h3
  subst h3
  refine ⟨p, e, ?_⟩
  intro hb
  obtain ⟨h4, h5⟩ := h2 hb
  cases p with
  | mk a b =>
    simp only [JsonStream.Parser.init, List.length_nil, JsonStream.need] at h4 h5
    have : b = [] := List.length_eq_zero_iff.1 (by omega)
    rw [this, h4]; rfl

/-- **C76.**  As long as every text received so far could be read by itself, a connection is treated as if its text were the
first one: it is answered with the result of the document if it is one, and otherwise left open and without effect. -/
theorem connection_by_itself (cs : List (Option Str × (Nat → Env))) (ha : ∀ c ∈ cs, ∀ t, c.1 = some t → JsonStream.Accepted t)
    (s : Server) (h : serveAll Server.init cs = .ok s) (t : Str) (envs : Nat → Env) :
    (∀ n, parse (.obj []) t = .ok (true, n) → serve s (some t) envs = (processRequest s.c envs n).bind fun a =>
      .ok { s with c := a.1, next := cs.length + 1, replies := s.replies ++ [(cs.length, a.2)] }) ∧
    (¬ JsonStream.Accepted t → ∃ p, serve s (some t) envs =
      .ok { s with next := cs.length + 1, parser := p, opened := cs.length :: s.opened }) := by
  have main : ∀ (cs : List (Option Str × (Nat → Env))) (a b : Server), a.parser = JsonStream.Parser.init →
      (∀ c ∈ cs, ∀ t, c.1 = some t → JsonStream.Accepted t) → serveAll a cs = .ok b →
      b.parser = JsonStream.Parser.init ∧ b.next = a.next + cs.length := by
    intro cs
    induction cs with
    | nil =>
      intro a b hp _ h
      simp only [serveAll, R.ok.injEq] at h
      subst h; exact ⟨hp, rfl⟩
    | cons c cs ih =>
      intro a b hp ha h
      rw [serveAll] at h
      cases hs : serve a c.1 c.2 with
      | dies => rw [hs] at h; simp [R.bind] at h
      | ub => rw [hs] at h; simp [R.bind] at h
      | ok a1 =>
        rw [hs] at h
        have hp1 : a1.parser = JsonStream.Parser.init := by
          obtain ⟨t, envs⟩ := c
          cases t with
          | none => simp only [serve, R.ok.injEq] at hs; rw [← hs]; exact hp
          | some t =>
            obtain ⟨n, hn⟩ := ha _ (List.mem_cons_self ..) t rfl
            obtain ⟨p, e, hq⟩ := request_fresh hn
            simp only [serve, hp, e, R.ofOutcome, R.bind, Bool.not_true, Bool.false_eq_true, if_false] at hs
            cases hx : processRequest a.c envs n with
            | dies => rw [hx] at hs; simp at hs
            | ub => rw [hx] at hs; simp at hs
            | ok v =>
              rw [hx] at hs
              simp only [R.ok.injEq] at hs
              rw [← hs]; exact hq rfl
        obtain ⟨g1, g2⟩ := ih a1 b hp1 (fun x hx => ha x (List.mem_cons_of_mem _ hx)) h
        refine ⟨g1, ?_⟩
        rw [g2, (serve_lists hs).1, List.length_cons]; omega
  obtain ⟨hp, hn⟩ := main cs Server.init s rfl ha h
  have hn : s.next = cs.length := by rw [hn]; simp [Server.init]
  constructor
  · intro n hpn
    obtain ⟨p, e, hq⟩ := request_fresh hpn
    simp only [serve, hp, e, R.ofOutcome, R.bind, Bool.not_true, Bool.false_eq_true, if_false, hn, hq rfl]
  · intro hna
    obtain ⟨b, n, hpn⟩ := JsonStream.parse_defined t
    cases b with
    | true => exact absurd ⟨n, hpn⟩ hna
    | false =>
      obtain ⟨p, e, _⟩ := request_fresh hpn
      refine ⟨p, ?_⟩
      simp only [serve, hp, e, R.ofOutcome, R.bind, Bool.not_false, if_true, hn]

/-- A document's first list of events is the one carried out. -/
theorem processRequest_append (s : C) (envs : Nat → Env) (l l' : List (Str × Node)) (h : (l.lookup "events".toList).isSome) :
    processRequest s envs (.obj (l ++ l')) = processRequest s envs (.obj l) := by
  have hm : member "events" (.obj (l ++ l')) = member "events" (.obj l) := by
    simp only [member]
    rw [List.lookup_append]
    cases hl : l.lookup "events".toList with
    | none => rw [hl] at h; simp at h
    | some v => rfl
  cases hl : l.lookup "events".toList with
  | none => rw [hl] at h; simp at h
  | some v =>
    have h1 : member "events" (.obj l) = some v := hl
    have h2 := hm.trans h1
    unfold processRequest
    rw [has_obj, has_obj, h1, h2]
    simp only [R.bind, Option.isSome_some]
    rw [get_obj l "events" v h1, get_obj (l ++ l') "events" v h2]

/-- **C76 (recorded exception).**  A request with one stray character before it is not answered and its connection is left open; it is
carried out when the next request arrives, and its results are what the next client is told; that client's own events are not
carried out at all. -/
theorem next_client_gets_others_results (c : Char) (hc : JsonStream.Stray c) (f g : Format) (l l' : List (Str × Node))
    (h : Good (.obj l)) (h' : Good (.obj l')) (he : (l.lookup "events".toList).isSome) (env0 env1 : Nat → Env)
    (s1 : C) (r : Reply) (hr : processRequest C.init env1 (.obj l) = .ok (s1, r)) :
    serveAll Server.init [(some (c :: write f 0 (.obj l)), env0), (some (write g 0 (.obj l')), env1)] =
      .ok ⟨s1, JsonStream.Parser.init, 2, [0], [(1, r)]⟩ := by
  have hq := JsonStream.refused_request_is_read_later c hc f g l l' h h'
  simp only [JsonStream.requests] at hq
  cases e1 : JsonStream.request JsonStream.Parser.init (c :: write f 0 (.obj l)) with
  | ub => rw [e1] at hq; simp [Outcome.bind] at hq
  | hang => rw [e1] at hq; simp [Outcome.bind] at hq
  | ok v1 =>
    rw [e1, Outcome.bind_ok] at hq
    cases e2 : JsonStream.request v1.2 (write g 0 (.obj l')) with
    | ub => rw [e2] at hq; simp [Outcome.bind, Outcome.map] at hq
    | hang => rw [e2] at hq; simp [Outcome.bind, Outcome.map] at hq
    | ok v2 =>
      rw [e2] at hq
      simp only [Outcome.bind_ok, Outcome.map_ok, Outcome.ok.injEq, Prod.mk.injEq, List.cons.injEq, and_true] at hq
      obtain ⟨⟨q1, q2⟩, q3⟩ := hq
      obtain ⟨v1, p1⟩ := v1
      obtain ⟨v2, p2⟩ := v2
      simp only at q1 q2 q3 e2
      subst q1 q2 q3
      simp only [serveAll, serve, Server.init, e1, e2, R.ofOutcome, R.bind, Bool.not_true, Bool.not_false, if_true, Bool.false_eq_true, if_false,
        processRequest_append _ _ _ _ he, hr, List.nil_append, Nat.zero_add]

/-! ## Requests of which only a beginning arrives -/

theorem parse_object {t : Str} {n : Node} (h : parse (.obj []) t = .ok (true, n)) : ∃ l, n = .obj l := by
  unfold parse at h
  obtain ⟨W, hW⟩ := JsonStream.assemble_adds _ _ _ _ _ [] true n rfl h
  exact ⟨_, hW⟩

theorem processRequest_array (s : C) (envs : Nat → Env) (l : List (Str × Node)) :
    processRequest s envs (.obj l) = match JsonStream.arrayUnder "events".toList (.obj l) with
      | some a => events s (a.zipIdx.map fun e => (e.1, envs e.2))
      | none => .ok (s, [failed "Invalid JSON, missing 'events' tag"]) := by
  unfold processRequest
  rw [has_obj]
  simp only [JsonStream.arrayUnder, R.bind]
  have hl := find_lookup l "events".toList
  cases hf : l.find? fun e => decide (e.1 = "events".toList) with
  | none =>
    rw [hf] at hl
    have hm : member "events" (.obj l) = none := Eq.trans rfl hl.symm
    rw [hm]
    rfl
  | some e =>
    rw [hf] at hl
    have hm : member "events" (.obj l) = some e.2 := Eq.trans rfl hl.symm
    rw [get_obj l "events" e.2 hm, hm]
    obtain ⟨x, y⟩ := e
    cases y <;> rfl

/-- **C75.**  If only a beginning of a request arrives (one `read` of at most 16383 bytes), the server carries out all of its events
as if the whole had arrived, or none: there is no beginning of which a part of the events is carried out. -/
theorem cut_request_carried_out_or_not (s : C) (envs : Nat → Env) (sent got rest : Str) (hs : sent = got ++ rest) (n m : Node)
    (hn : parse (.obj []) sent = .ok (true, n)) (hm : parse (.obj []) got = .ok (true, m)) :
    processRequest s envs m = processRequest s envs n ∨ ∃ r, processRequest s envs m = .ok (s, r) ∧ IsFailed r := by
  obtain ⟨l, rfl⟩ := parse_object hn
  obtain ⟨l', rfl⟩ := parse_object hm
  rw [processRequest_array, processRequest_array]
  rcases JsonStream.cut_request_all_or_nothing sent got rest hs "events".toList _ _ hn hm with h | h
  · rw [h]; exact Or.inr ⟨_, rfl, _, rfl⟩
  · rw [h]; exact Or.inl rfl

/-! ## Concrete runs -/

/-- Answers of filters for the examples. -/
def quiet : Env := ⟨7, 8, true, fun _ => true, fun _ => [], fun _ _ => 0, fun _ _ => 0⟩

/-- What a run of the server left, for comparisons: the replies, the connections left open, the filters and the paths. -/
def leaves (o : R Server) (replies : List (Nat × String)) (opened : List Nat) (filters paths : List Int) : Bool :=
  match o with
  | .ok s => s.replies.map (fun r => (r.1, write tight 0 (.obj r.2))) == replies.map (fun r => (r.1, r.2.toList)) &&
      s.opened == opened && s.c.pipe.filters.map (·.1) == filters && s.c.pipe.paths.map (·.1) == paths
  | _ => false

/-- A request that makes two filters and a path, and one that asks for the report. -/
theorem session_example :
    leaves (serveAll Server.init [(some ("{\"events\":[{\"action\":\"createFilter\",\"params\":{\"id\":5,\"type\":\"audioMixer\"}}," ++
        "{\"action\":\"createFilter\",\"params\":{\"id\":3,\"type\":\"videoMixer\"}}," ++
        "{\"action\":\"createPath\",\"params\":{\"id\":1,\"orgFilterId\":5,\"dstFilterId\":3,\"orgWriterId\":-1,\"dstReaderId\":-1," ++
        "\"midFiltersIds\":[]}}]}").toList, fun _ => quiet),
      (none, fun _ => quiet),
      (some "{\"events\":[{\"action\":\"getState\",\"params\":{}}]}".toList, fun _ => quiet)])
      [(0, "{\"error\":null,\"error\":null,\"error\":null}"),
       (2, "{\"filters\":[{\"id\":3},{\"id\":5}],\"paths\":[{\"id\":1,\"originFilter\":5,\"destinationFilter\":3," ++
          "\"originWriter\":7,\"destinationReader\":8,\"avgDelay\":0,\"lostBlocs\":0,\"filters\":[]}]}")] [1] [5, 3] [1] = true := by
  decide +kernel

/-- **C76 (recorded exception).**  A filter made twice: the reply's first verdict is the success of the first, the failure is hidden
behind it. -/
theorem second_verdict_hidden :
    leaves (serveAll Server.init [(some ("{\"events\":[{\"action\":\"createFilter\",\"params\":{\"id\":5,\"type\":\"audioMixer\"}}," ++
        "{\"action\":\"createFilter\",\"params\":{\"id\":5,\"type\":\"videoMixer\"}}]}").toList, fun _ => quiet)])
      [(0, "{\"error\":null,\"error\":\"Error creating filter.\"}")] [] [5] [] = true := by
  decide +kernel

/-- **C76 (recorded exception).**  A path that cannot be connected is reported as failed and stays registered. -/
theorem unconnected_path_stays :
    leaves (serveAll Server.init [(some ("{\"events\":[{\"action\":\"createFilter\",\"params\":{\"id\":5,\"type\":\"audioMixer\"}}," ++
        "{\"action\":\"createFilter\",\"params\":{\"id\":3,\"type\":\"videoMixer\"}}," ++
        "{\"action\":\"createPath\",\"params\":{\"id\":1,\"orgFilterId\":5,\"dstFilterId\":3,\"orgWriterId\":-1,\"dstReaderId\":-1," ++
        "\"midFiltersIds\":[]}}]}").toList, fun _ => { quiet with connected := false })])
      [(0, "{\"error\":null,\"error\":null,\"error\":\"Error connecting path. Better pray Jesus...\"}")] [] [5, 3] [1] = true := by
  decide +kernel

/-- The hypotheses of `next_client_gets_others_results` are met: the filter of the first client is made for the second one. -/
theorem stray_example :
    leaves (serveAll Server.init [(some "x{\"events\":[{\"action\":\"createFilter\",\"params\":{\"id\":5,\"type\":\"audioMixer\"}}]}".toList, fun _ => quiet),
      (some "{\"events\":[{\"action\":\"stop\",\"params\":{}}]}".toList, fun _ => quiet)])
      [(1, "{\"error\":null}")] [0] [5] [] = true := by
  decide +kernel

end Lms.Control
