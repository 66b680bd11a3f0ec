import Verif.JsonTree.Sim

/-!
# JSON trees are values
-/

namespace Lms.JsonTree

open Json (Str VType)

/-- What a program gets from the code. -/
def gets (ops : List Op) : Outcome (List Out) := (M.init.run ops).map (·.2)

/-- **Each variable holds a tree of its own.**  Whatever the program, as long as it assigns no `Object` or `Array`,
nothing undefined happens and it gets exactly what it would get if the variables held values: no tree changes by what
is done to another, no matter what was copied or added from where. -/
theorem trees_are_values (ops : List Op) (hn : NoAssign ops) : gets ops = .ok (Env.run (fun _ => none) ops).2 := by
  obtain ⟨m, F, e, _⟩ := run_sim ops init_inv hn
  simp [gets, e, Outcome.map]

theorem run_inv {ops : List Op} (hn : NoAssign ops) {m outs} (hr : M.init.run ops = .ok (m, outs)) :
    ∃ F, Inv m (Env.run (fun _ => none) ops).1 F := by
  obtain ⟨m', F, e, i⟩ := run_sim ops init_inv hn
  rw [hr] at e
  simp only [Outcome.ok.injEq, Prod.mk.injEq] at e
  exact ⟨F, e.1 ▸ i⟩

theorem repL_owned {h : H} {R : Nat → Tree → (Nat → Prop) → Prop} (hR : ∀ c t S, R c t S → ∀ x, S x → Owns h c x) :
    ∀ l ts S, RepL R l ts S → ∀ x, S x → ∃ k c, (k, c) ∈ l ∧ Owns h c x
  | [], [], _, hr, x, hx => (hr x hx).elim
  | (k, c) :: l, (k', t) :: ts, S, ⟨_, S1, S2, h1, h2, _, hs⟩, x, hx => by
    rcases (hs x).1 hx with h3 | h3
    · exact ⟨k, c, List.mem_cons_self, hR _ _ _ h1 x h3⟩
    · obtain ⟨k2, c2, g1, g2⟩ := repL_owned hR l ts S2 h2 x h3
      exact ⟨k2, c2, List.mem_cons_of_mem _ g1, g2⟩
  | [], _ :: _, _, hr, _, _ => hr.elim
  | _ :: _, [], _, hr, _, _ => hr.elim

theorem Rep.owned {h : H} : ∀ n a t S, Rep h n a t S → ∀ x, S x → Owns h a x
  | 0, _, _, _, hr, _, _ => hr.elim
  | n + 1, a, .val t s, S, ⟨h1, h2⟩, x, hx => by
    rw [(h2 x).1 hx]; exact .self (by rw [h1]; trivial)
  | n + 1, a, .node b ts, S, ⟨l, S', h1, h2, h3, h4⟩, x, hx => by
    rcases (h4 x).1 hx with e | e
    · rw [e]; exact .self (by rw [h1]; trivial)
    · obtain ⟨k, c, g1, g2⟩ := repL_owned (Rep.owned n) l ts S' h2 x e
      exact .kid h1 g1 g2

theorem RepL.member {R : Nat → Tree → (Nat → Prop) → Prop} {k c} : ∀ l ts S, RepL R l ts S → (k, c) ∈ l → ∃ t S1, R c t S1 ∧ ∀ x, S1 x → S x
  | [], [], _, _, hm => by simp at hm
  | (k0, c0) :: l, (k', t) :: ts, S, ⟨_, S1, S2, h1, h2, _, hs⟩, hm => by
    rcases List.mem_cons.1 hm with h | h
    · simp only [Prod.mk.injEq] at h
      exact ⟨t, S1, h.2 ▸ h1, fun x hx => (hs x).2 (.inl hx)⟩
    · obtain ⟨t2, S3, g1, g2⟩ := RepL.member l ts S2 h2 h
      exact ⟨t2, S3, g1, fun x hx => (hs x).2 (.inr (g2 x hx))⟩
  | [], _ :: _, _, hr, _ => hr.elim
  | _ :: _, [], _, hr, _ => hr.elim

theorem Owns.inside {h : H} {a x} (ho : Owns h a x) : ∀ n t S, Rep h n a t S → S x := by
  induction ho with
  | self _ => intro n t S hr; exact hr.root
  | kid e hm _ ih =>
    intro n t S hr
    cases t with
    | val t s => rw [hr.cellVal.1] at e; simp at e
    | node b ts =>
      obtain ⟨n', l', S', _, h1, h2, _, h4⟩ := hr.cellNode
      rw [e] at h1
      simp only [Cell.node.injEq] at h1
      obtain ⟨t2, S1, g1, g2⟩ := RepL.member _ _ _ h2 (h1.2 ▸ hm)
      exact (h4 _).2 (.inr (g2 _ (ih _ _ _ g1)))

/-- **Each node belongs to exactly one variable.**  After any program without such assignments, every node in memory
is in the tree of some variable, and of only one. -/
theorem each_node_has_one_owner {ops : List Op} (hn : NoAssign ops) {m outs} (hr : M.init.run ops = .ok (m, outs)) (x : Nat)
    (hx : (m.h.cell x).Live) : ∃ v a, m.root v = some a ∧ Owns m.h a x ∧ ∀ w b, m.root w = some b → Owns m.h b x → w = v := by
  obtain ⟨F, hi⟩ := run_inv hn hr
  obtain ⟨v, hv⟩ := hi.all x hx
  rcases hi.vars v with ⟨_, _, g⟩ | ⟨t, a, n, _, h2, h3⟩
  · exact (g x hv).elim
  · refine ⟨v, a, h2, h3.owned _ _ _ _ x hv, ?_⟩
    intro w b hw ho
    rcases hi.vars w with ⟨_, g, _⟩ | ⟨t', a', n', _, g2, g3⟩
    · rw [hw] at g; simp at g
    · rw [hw] at g2
      simp only [Option.some.injEq] at g2
      subst g2
      exact hi.disj _ _ x (ho.inside _ _ _ g3) hv

/-- **Nothing leaks.**  When the last variable is gone no node is left in memory. -/
theorem nothing_leaks {ops : List Op} (hn : NoAssign ops) {m outs} (hr : M.init.run ops = .ok (m, outs))
    (hg : ∀ v, m.root v = none) (x : Nat) : ¬(m.h.cell x).Live := by
  intro hx
  obtain ⟨v, a, h, _⟩ := each_node_has_one_owner hn hr x hx
  rw [hg v] at h; simp at h

/-! Copies -/

theorem Env.run_append : ∀ (e : Env) (a b : List Op), e.run (a ++ b) = (((e.run a).1.run b).1, (e.run a).2 ++ ((e.run a).1.run b).2)
  | e, [], b => by simp [Env.run]
  | e, o :: a, b => by simp [Env.run, Env.run_append (e.step o).1 a b]

theorem find_keeps {e : Env} {v : Nat} {r : Ref} {k : Tree → Env × Out} (hk : ∀ u, (k u).1 v = e v) : (e.find r k).1 v = e v := by
  unfold Env.find
  split
  · rfl
  · split
    · rfl
    · exact hk _

theorem write_keeps {e : Env} {v : Nat} {r : Ref} (u) (h : r.v ≠ v) : e.write r u v = e v := by
  simp [Env.write, Env.to, Ne.symm h]

theorem to_keeps {e : Env} {v w : Nat} (u) (h : w ≠ v) : e.to w u v = e v := by
  simp [Env.to, Ne.symm h]

theorem step_keeps (e : Env) (v : Nat) (o : Op) (h : o.target ≠ some v) : (e.step o).1 v = e v := by
  cases o <;> simp only [Op.target, ne_eq, Option.some.injEq] at h <;> simp only [Env.step]
  case mkVal => split; rfl; exact to_keeps _ h
  case mkNode => split; rfl; exact to_keeps _ h
  case copy =>
    split
    · rfl
    · refine find_keeps fun u => ?_
      split
      · exact to_keeps _ h
      · rfl
  case add =>
    refine find_keeps fun u => find_keeps fun c => ?_
    split
    · exact write_keeps _ h
    · rfl
  case push =>
    refine find_keeps fun u => find_keeps fun c => ?_
    split
    · exact write_keeps _ h
    · rfl
  case remove =>
    refine find_keeps fun u => ?_
    unfold Env.removeIdx
    split
    · split
      · exact write_keeps _ h
      · rfl
    · rfl
  case removeAt =>
    refine find_keeps fun u => ?_
    unfold Env.removeIdx
    split
    · split
      · exact write_keeps _ h
      · rfl
    · rfl
  case clear =>
    refine find_keeps fun u => ?_
    split
    · exact write_keeps _ h
    · rfl
  case set =>
    refine find_keeps fun u => ?_
    split
    · exact write_keeps _ h
    · rfl
  case look => exact find_keeps fun u => rfl
  case has =>
    refine find_keeps fun u => ?_
    split <;> rfl
  case count => exact find_keeps fun u => rfl
  case destroy => split; exact to_keeps _ h; rfl

theorem run_keeps (v : Nat) : ∀ (ops : List Op) (e : Env), (∀ o ∈ ops, o.target ≠ some v) → (e.run ops).1 v = e v
  | [], _, _ => rfl
  | o :: os, e, h => by
    show ((e.step o).1.run os).1 v = _
    rw [run_keeps v os _ (fun o' ho => h o' (List.mem_cons_of_mem _ ho)), step_keeps e v o (h o List.mem_cons_self)]

theorem look_out {e : Env} {r : Ref} {u : Tree} (h : (e.step (.look r)).2 = .tree u) : ∃ t, e r.v = some t ∧ t.get r.p = some u := by
  simp only [Env.step, Env.find] at h
  cases hv : e r.v with
  | none => simp [hv] at h
  | some t =>
    cases hg : t.get r.p with
    | none => simp [hv, hg] at h
    | some u' =>
      simp only [hv, hg, Out.tree.injEq] at h
      exact ⟨t, rfl, by rw [hg, h]⟩

theorem outs_of {ops : List Op} (hn : NoAssign ops) {o} (h : gets ops = .ok o) : (Env.run (fun _ => none) ops).2 = o := by
  rw [trees_are_values ops hn] at h
  simpa using h

theorem two_outs {e : Env} {ops : List Op} {a b : Op} {o x y} (h : (e.run (ops ++ [a, b])).2 = o ++ [x, y]) :
    ((e.run ops).1.step a).2 = x ∧ (((e.run ops).1.step a).1.step b).2 = y := by
  rw [Env.run_append] at h
  simp only [Env.run] at h
  have := List.append_inj_right' h (by simp)
  simpa using this

/-- **A copy is independent of its original.**  If a node reads as `u` and is then copied into a variable, the
variable reads as `u` after whatever is done to other variables, the original among them. -/
theorem copy_is_independent {ops ops' : List Op} {v kind r o u} (hn : NoAssign (ops ++ [.look r, .copy v kind r] ++ ops'))
    (hc : gets (ops ++ [.look r, .copy v kind r]) = .ok (o ++ [.tree u, .done])) (hk : ∀ q ∈ ops', q.target ≠ some v) :
    ∃ o', gets (ops ++ [.look r, .copy v kind r] ++ ops' ++ [.look ⟨v, []⟩]) = .ok (o' ++ [.tree u]) := by
  have hn1 : NoAssign (ops ++ [.look r, .copy v kind r]) := fun a b h => hn a b (List.mem_append_left _ h)
  have hn2 : NoAssign (ops ++ [.look r, .copy v kind r] ++ ops' ++ [.look ⟨v, []⟩]) := fun a b h => by
    rcases List.mem_append.1 h with h | h
    · exact hn a b h
    · simp at h
  obtain ⟨h1, h2⟩ := two_outs (outs_of hn1 hc)
  obtain ⟨t, ht, hg⟩ := look_out h1
  have hst : ((Env.run (fun _ => none) ops).1.step (.look r)).1 = (Env.run (fun _ => none) ops).1 := by
    simp [Env.step, Env.find, ht, hg]
  rw [hst] at h2
  have hv : (((Env.run (fun _ => none) ops).1.step (.copy v kind r)).1) v = some u := by
    simp only [Env.step] at h2 ⊢
    split at h2
    · simp at h2
    · rename_i hf
      simp only [if_neg hf]
      simp only [Env.find, ht, hg] at h2 ⊢
      split at h2
      · rename_i hk
        simp [hk, Env.to]
      · simp at h2
  rw [trees_are_values _ hn2, Env.run_append, Env.run_append]
  refine ⟨_, by
    simp only [Env.run]
    have e1 : ((Env.run (fun _ => none) (ops ++ [.look r, .copy v kind r])).1.run ops').1 v = some u := by
      rw [run_keeps v ops' _ hk, Env.run_append]
      simpa [Env.run, hst] using hv
    have : ((((Env.run (fun _ => none) (ops ++ [.look r, .copy v kind r])).1.run ops').1).step (.look ⟨v, []⟩)).2 = .tree u := by
      simp only [Env.step, Env.find, e1]
      cases u <;> rfl
    rw [this]⟩

/-! What `Add` and `Remove` do to a name -/

theorem set_names {β : Type} (l : List (Str × β)) (i : Nat) (k : Str) (c c' : β) (h : l[i]? = some (k, c)) :
    (l.set i (k, c')).map (·.1) = l.map (·.1) := by
  rw [List.map_set]
  obtain ⟨hi, e⟩ := List.getElem?_eq_some_iff.1 h
  refine List.ext_getElem? fun j => ?_
  by_cases hj : i = j
  · subst hj
    simp [hi, e]
  · simp [hj]

theorem at_set {β : Type} (b : Bool) (s : Step) (l : List (Str × β)) (i : Nat) (k : Str) (c c' : β) (h : l[i]? = some (k, c)) :
    s.at b (l.set i (k, c')) = s.at b l := by
  cases s with
  | name n => simp only [Step.at]; rw [findIdx_names n _ l (set_names l i k c c' h)]
  | idx j => simp [Step.at]

theorem get_put (w : Tree) (q : List Step) : ∀ (p : List Step) (t u : Tree), t.get p = some u → (t.put p w).get (p ++ q) = w.get q
  | [], t, u, _ => by cases t <;> simp [Tree.put]
  | s :: p, .val _ _, u, h => by simp [Tree.get] at h
  | s :: p, .node b l, u, h => by
    simp only [Tree.get] at h
    cases hs : s.at b l with
    | none => simp [hs] at h
    | some i =>
      simp only [hs, Option.bind_some] at h
      have hi := at_lt hs
      have e : l[i]? = some (l[i].1, l[i].2) := by simp [hi]
      rw [e] at h
      simp only [Tree.put, hs, e, List.cons_append, Tree.get, at_set b s l i _ _ _ e, Option.bind_some, List.getElem?_set, hi, if_true]
      exact get_put w q p _ u h

theorem add_out {e : Env} {r src : Ref} {k : Str} (h : (e.step (.add r k src)).2 = .done) :
    ∃ t l c, e r.v = some t ∧ t.get r.p = some (.node true l) ∧ (∃ t', e src.v = some t' ∧ t'.get src.p = some c) ∧
      (e.step (.add r k src)).1 = e.write r (.node true (l ++ [(k, c)])) := by
  simp only [Env.step, Env.find, Env.addTo] at h ⊢
  cases hv : e r.v with
  | none => simp [hv] at h
  | some t =>
    cases hg : t.get r.p with
    | none => simp [hv, hg] at h
    | some u =>
      cases hv2 : e src.v with
      | none => simp [hv, hg, hv2] at h
      | some t2 =>
        cases hg2 : t2.get src.p with
        | none => simp [hv, hg, hv2, hg2] at h
        | some c =>
          cases u with
          | val a b => simp [hv, hg, hv2, hg2, Tree.kind] at h
          | node b l =>
            cases b with
            | false => simp [hv, hg, hv2, hg2, Tree.kind] at h
            | true => exact ⟨t, l, c, rfl, hg, ⟨t2, rfl, hg2⟩, by simp [hg, hg2, Tree.kind, Tree.kids]⟩

theorem write_find {e : Env} {r : Ref} {t u w : Tree} (ht : e r.v = some t) (hg : t.get r.p = some u) (q : List Step) (k : Tree → Env × Out) :
    (e.write r w).find ⟨r.v, r.p ++ q⟩ k = match w.get q with
      | none => (e.write r w, .thrown)
      | some x => k x := by
  simp only [Env.find, Env.write, Env.to, if_true, ht, Option.map_some, get_put w q r.p t u hg]
  cases w.get q <;> rfl

/-- **What was added is found, as it was.**  If a node that reads as `u` is added under a name the object did not
have, `Get` of that name reads as `u` after whatever is done to other variables. -/
theorem added_is_found {ops ops' : List Op} {r src : Ref} {k : Str} {o u} (hn : NoAssign (ops ++ [.look src, .has r k, .add r k src] ++ ops'))
    (hc : gets (ops ++ [.look src, .has r k, .add r k src]) = .ok (o ++ [.tree u, .ans false, .done])) (hk : ∀ q ∈ ops', q.target ≠ some r.v) :
    ∃ o', gets (ops ++ [.look src, .has r k, .add r k src] ++ ops' ++ [.look ⟨r.v, r.p ++ [.name k]⟩]) = .ok (o' ++ [.tree u]) := by
  have hn1 : NoAssign (ops ++ [.look src, .has r k, .add r k src]) := fun a b h => hn a b (List.mem_append_left _ h)
  have hn2 : NoAssign (ops ++ [.look src, .has r k, .add r k src] ++ ops' ++ [.look ⟨r.v, r.p ++ [.name k]⟩]) := fun a b h => by
    rcases List.mem_append.1 h with h | h
    · exact hn a b h
    · simp at h
  have ho := outs_of hn1 hc
  rw [Env.run_append] at ho
  simp only [Env.run] at ho
  have ho := List.append_inj_right' ho (by simp)
  simp only [List.cons.injEq, and_true] at ho
  obtain ⟨h1, h2, h3⟩ := ho
  obtain ⟨t, ht, hg⟩ := look_out h1
  have hst : ((Env.run (fun _ => none) ops).1.step (.look src)).1 = (Env.run (fun _ => none) ops).1 := by
    simp [Env.step, Env.find, ht, hg]
  rw [hst] at h2 h3
  have hst2 : ((Env.run (fun _ => none) ops).1.step (.has r k)).1 = (Env.run (fun _ => none) ops).1 := by
    simp only [Env.step, Env.find]
    split
    · rfl
    · split
      · rfl
      · split <;> rfl
  rw [hst2] at h3
  obtain ⟨t1, l, c, g1, g2, ⟨t', g3, g4⟩, g5⟩ := add_out h3
  obtain rfl : c = u := by
    rw [ht] at g3
    simp only [Option.some.injEq] at g3
    subst g3
    rw [hg] at g4
    simpa using g4.symm
  have hno : (l.any fun c => c.1 = k) = false := by
    simpa [Env.step, Env.find, g1, g2, Tree.kind, Tree.kids] using h2
  have hat : Step.at true (l ++ [(k, c)]) (.name k) = some l.length := by
    simp only [Step.at, if_true, List.findIdx?_append]
    have : l.findIdx? (fun e => decide (e.1 = k)) = none := by
      have := List.findIdx?_isSome (xs := l) (p := fun e => decide (e.1 = k))
      rw [hno] at this
      simpa using this
    simp [this, List.findIdx?_cons]
  rw [trees_are_values _ hn2, Env.run_append, Env.run_append]
  refine ⟨_, by
    simp only [Env.run]
    have e1 : ((Env.run (fun _ => none) (ops ++ [.look src, .has r k, .add r k src])).1.run ops').1 r.v =
        ((Env.run (fun _ => none) ops).1.write r (.node true (l ++ [(k, c)]))) r.v := by
      rw [run_keeps r.v ops' _ hk, Env.run_append]
      simp only [Env.run, hst, hst2, g5]
    have : ((((Env.run (fun _ => none) (ops ++ [.look src, .has r k, .add r k src])).1.run ops').1).step (.look ⟨r.v, r.p ++ [.name k]⟩)).2 = .tree c := by
      have hw := write_find (w := .node true (l ++ [(k, c)])) g1 g2 [.name k] (fun u => ((Env.run (fun _ => none) ops).1, .tree u))
      simp only [Env.step, Env.find, e1] at hw ⊢
      have hg3 : (Tree.node true (l ++ [(k, c)])).get [.name k] = some c := by
        simp only [Tree.get, hat, Option.bind_some]
        simp
      rw [hg3] at hw
      cases hx : ((Env.run (fun _ => none) ops).1.write r (.node true (l ++ [(k, c)]))) r.v with
      | none => simp only [hx] at hw; simp at hw
      | some y =>
        simp only [hx] at hw ⊢
        cases hy : y.get (r.p ++ [.name k]) with
        | none => simp only [hy] at hw; simp at hw
        | some z => simp only [hy, Prod.mk.injEq, Out.tree.injEq, true_and] at hw ⊢; exact hw
    rw [this]⟩

/-- **Recorded: a name added twice is not gone after one `Remove`.** -/
theorem removed_name_may_remain {ops : List Op} {r s1 s2 : Ref} {k : Str} {o x y}
    (hn : NoAssign (ops ++ [.add r k s1, .add r k s2, .remove r k, .has r k]))
    (hc : gets (ops ++ [.add r k s1, .add r k s2, .remove r k, .has r k]) = .ok (o ++ [.done, .done, x, y])) : x = .done ∧ y = .ans true := by
  have ho := outs_of hn hc
  rw [Env.run_append] at ho
  simp only [Env.run] at ho
  have ho := List.append_inj_right' ho (by simp)
  simp only [List.cons.injEq, and_true] at ho
  obtain ⟨h1, h2, h3, h4⟩ := ho
  obtain ⟨t, l, c, g1, g2, _, g5⟩ := add_out h1
  rw [g5] at h2 h3 h4
  obtain ⟨t', l', c', k1, k2, _, k5⟩ := add_out h2
  rw [k5] at h3 h4
  have hl' : l' = l ++ [(k, c)] := by
    simp only [Env.write, Env.to, if_true, g1, Option.map_some, Option.some.injEq] at k1
    subst k1
    have := get_put (.node true (l ++ [(k, c)])) [] r.p t _ g2
    rw [List.append_nil] at this
    rw [this] at k2
    simpa [Tree.get] using k2.symm
  subst hl'
  have hf : ∀ K : Tree → Env × Out, (((Env.run (fun _ => none) ops).1.write r (.node true (l ++ [(k, c)]))).write r (.node true (l ++ [(k, c)] ++ [(k, c')]))).find r K =
      K (.node true (l ++ [(k, c)] ++ [(k, c')])) := by
    intro K
    have := write_find (w := .node true (l ++ [(k, c)] ++ [(k, c')])) k1 k2 [] K
    simpa [Tree.get] using this
  generalize hE : ((Env.run (fun _ => none) ops).1.write r (.node true (l ++ [(k, c)]))).write r (.node true (l ++ [(k, c)] ++ [(k, c')])) = E at *
  have hEt : ∃ t, E r.v = some t ∧ t.get r.p = some (.node true (l ++ [(k, c)] ++ [(k, c')])) := by
    refine ⟨t'.put r.p (.node true (l ++ [(k, c)] ++ [(k, c')])), ?_, ?_⟩
    · rw [← hE]; simp [Env.write, Env.to, g1] at k1 ⊢; simp [k1]
    · have := get_put (.node true (l ++ [(k, c)] ++ [(k, c')])) [] r.p t' _ k2
      simpa [Tree.get] using this
  obtain ⟨tE, e1, e2⟩ := hEt
  obtain ⟨i, hi, hle⟩ : ∃ i, Step.at true (l ++ [(k, c)] ++ [(k, c')]) (.name k) = some i ∧ i ≤ l.length := by
    simp only [Step.at, if_true, List.findIdx?_append]
    cases hq : l.findIdx? (fun e => decide (e.1 = k)) with
    | none => exact ⟨l.length, by simp [List.findIdx?_cons], Nat.le_refl _⟩
    | some i =>
      refine ⟨i, by simp, ?_⟩
      have := (List.findIdx?_eq_some_iff_getElem.1 hq).1
      omega
  have hrem : E.step (.remove r k) = (E.write r (.node true ((l ++ [(k, c)] ++ [(k, c')]).eraseIdx i)), .done) := by
    simp only [Env.step, hf, Env.removeIdx, Tree.kind, Tree.kids, if_true, hi]
  rw [hrem] at h3 h4
  refine ⟨h3.symm, ?_⟩
  have hf2 := fun K => write_find (w := .node true ((l ++ [(k, c)] ++ [(k, c')]).eraseIdx i)) e1 e2 [] K
  simp only [List.append_nil, Tree.get] at hf2
  simp only [Env.step] at h4
  rw [hf2] at h4
  rw [← h4]
  have hlast : (k, c') ∈ (l ++ [(k, c)] ++ [(k, c')]).eraseIdx i := by
    rw [List.eraseIdx_append_of_lt_length (by simp; omega)]
    simp
  simp only [Tree.kind, Tree.kids, if_true, Out.ans.injEq, List.any_eq_true]
  exact ⟨(k, c'), hlast, by simp⟩

/-! References -/

/-- Every node is still there, with at most more children after its own. -/
def Grows (h h' : H) : Prop := ∀ x, match h.cell x with
  | .val _ _ => ∃ t s, h'.cell x = .val t s
  | .node b l => ∃ r, h'.cell x = .node b (l ++ r)
  | _ => True

theorem grows_same {h h' : H} (hk : ∀ x, (h.cell x).Live → h'.cell x = h.cell x) : Grows h h' := by
  intro x
  cases hc : h.cell x with
  | free => trivial
  | gone => trivial
  | val t s => exact ⟨t, s, by rw [hk x (by rw [hc]; trivial), hc]⟩
  | node b l => exact ⟨[], by rw [hk x (by rw [hc]; trivial), hc, List.append_nil]⟩

theorem at_append {β : Type} {b : Bool} {l : List (Str × β)} {s : Step} {i : Nat} (h : s.at b l = some i) (r : List (Str × β)) :
    s.at b (l ++ r) = some i := by
  cases s with
  | name k =>
    simp only [Step.at] at h ⊢
    split at h
    · rename_i hb
      simp [hb, List.findIdx?_append, h]
    · simp at h
  | idx j =>
    simp only [Step.at] at h ⊢
    split at h
    · simp at h
    · rename_i hb
      split at h
      · rename_i hj
        simp only [hb]
        simp only [Option.some.injEq] at h
        subst h
        simp [show j < l.length + r.length by omega]
      · simp at h

theorem resolve_grows {h h' : H} (hg : Grows h h') : ∀ (p : List Step) a b, resolve h a p = .ok (some b) → resolve h' a p = .ok (some b)
  | [], a, b, e => e
  | s :: p, a, b, e => by
    have hx := hg a
    simp only [resolve] at e ⊢
    cases hc : h.cell a with
    | free => simp [hc] at e
    | gone => simp [hc] at e
    | val t v => simp [hc] at e
    | node kb l =>
      rw [hc] at hx
      obtain ⟨r, hr⟩ := hx
      simp only [hc] at e
      simp only [hr]
      cases hs : s.at kb l with
      | none => simp [hs] at e
      | some i =>
        have hi := at_lt hs
        have e1 : l[i]? = some (l[i].1, l[i].2) := by simp [hi]
        have e2 : (l ++ r)[i]? = some (l[i].1, l[i].2) := by rw [List.getElem?_append_left hi, e1]
        simp only [hs, Option.bind_some, e1] at e
        simp only [at_append hs, Option.bind_some, e2]
        exact resolve_grows hg p _ b e

theorem find_ok {m : M} {r : Ref} {k : Nat → Outcome (M × Out)} {m' x} (h : m.find r k = .ok (m', x)) :
    m' = m ∨ ∃ a b, m.root r.v = some a ∧ resolve m.h a r.p = .ok (some b) ∧ k b = .ok (m', x) := by
  unfold M.find at h
  split at h
  · simp only [Outcome.ok.injEq, Prod.mk.injEq] at h; exact .inl h.1.symm
  · rename_i a ha
    cases hr : resolve m.h a r.p with
    | ub => simp [hr, Outcome.bind] at h
    | hang => simp [hr, Outcome.bind] at h
    | ok q =>
      cases q with
      | none => simp only [hr, Outcome.bind, Outcome.ok.injEq, Prod.mk.injEq] at h; exact .inl h.1.symm
      | some b => simp only [hr, Outcome.bind] at h; exact .inr ⟨a, b, ha, hr, h⟩

theorem addTo_grows {m : M} {e F} (hi : Inv m e F) {r : Ref} {a b} (ha : m.root r.v = some a) (hb : resolve m.h a r.p = .ok (some b))
    {kind k src m' x} (h : m.addTo b kind k src = .ok (m', x)) : m'.root = m.root ∧ Grows m.h m'.h := by
  rcases find_ok h with rfl | ⟨c, d, g1, g2, g3⟩
  · exact ⟨rfl, grows_same fun _ _ => rfl⟩
  · have hsame : m' = m → m'.root = m.root ∧ Grows m.h m'.h := fun e => by
      subst e; exact ⟨rfl, grows_same fun _ _ => rfl⟩
    cases hc : m.h.cell b with
    | free => simp [hc] at g3
    | gone => simp [hc] at g3
    | val t s => simp only [hc, Outcome.ok.injEq, Prod.mk.injEq] at g3; exact hsame g3.1.symm
    | node kb l =>
      simp only [hc] at g3
      split at g3
      · simp only [Outcome.ok.injEq, Prod.mk.injEq] at g3; exact hsame g3.1.symm
      · -- the source is a tree
        have hAt : ∃ u n T, At m e F src d u n T := by
          rcases hi.vars src.v with ⟨_, q, _⟩ | ⟨t, a', n, q1, q2, q3⟩
          · rw [g1] at q; simp at q
          · have hf := focus src.p n a' t _ q3
            rw [g1] at q2
            simp only [Option.some.injEq] at q2
            subst q2
            cases hg : t.get src.p with
            | none => rw [hg] at hf; simp only [g2, Outcome.ok.injEq] at hf; simp at hf
            | some u =>
              rw [hg] at hf
              obtain ⟨b', n', T, e1, f⟩ := hf
              rw [g2] at e1
              simp only [Outcome.ok.injEq, Option.some.injEq] at e1
              subst e1
              exact ⟨u, n', T, ⟨t, c, q1, g1, f⟩⟩
        obtain ⟨u, n, T, hA⟩ := hAt
        obtain ⟨h', c', e1, _, _, keep⟩ := copyN_ok m.h.next m.h d u T (hA.full hi) (hA.bnd hi)
        have hlt : ∀ x, (m.h.cell x).Live → x < m.h.next := fun x hx => by
          by_cases q : x < m.h.next
          · exact q
          · exact (hi.fresh x (by omega) hx).elim
        have hbl : h'.cell b = .node kb l := by rw [keep b (hlt b (by rw [hc]; trivial)), hc]
        simp only [e1, Outcome.bind, hbl, Outcome.ok.injEq, Prod.mk.injEq] at g3
        obtain ⟨rfl, _⟩ := g3
        refine ⟨rfl, ?_⟩
        intro y
        by_cases hy : y = b
        · rw [hy, hc]
          exact ⟨[(k, c')], put_same _ _ _⟩
        · have := grows_same (h := m.h) (h' := h') (fun x hx => keep x (hlt x hx)) y
          show match m.h.cell y with
            | .val _ _ => ∃ t s, (h'.put b _).cell y = .val t s
            | .node b2 l2 => ∃ r, (h'.put b _).cell y = .node b2 (l2 ++ r)
            | _ => True
          rw [put_ne _ _ hy]
          exact this

theorem bind_grows {m : M} {e F} (hi : Inv m e F) {h' : H} (hk : ∀ x, x < m.h.next → h'.cell x = m.h.cell x) : Grows m.h h' :=
  grows_same fun x hx => hk x (by
    by_cases q : x < m.h.next
    · exact q
    · exact (hi.fresh x (by omega) hx).elim)

/-- **References stay good.**  After any program without such assignments, a step that takes no node away, wherever it
adds, leaves every node where it is: a reference got before still leads to the same node. -/
theorem references_stay {ops : List Op} (hn : NoAssign ops) {m outs} (hr : M.init.run ops = .ok (m, outs)) {q : Op} (hq : q.Keeps)
    {m' x} (hs : m.step q = .ok (m', x)) {v a : Nat} {p : List Step} {b : Nat} (hv : m.root v = some a)
    (hp : resolve m.h a p = .ok (some b)) : m'.root v = some a ∧ resolve m'.h a p = .ok (some b) := by
  obtain ⟨F, hi⟩ := run_inv hn hr
  generalize (Env.run (fun _ => none) ops).1 = e at hi
  have fin : (∀ w, m.root w ≠ none → m'.root w = m.root w) → Grows m.h m'.h → m'.root v = some a ∧ resolve m'.h a p = .ok (some b) :=
    fun h1 h2 => ⟨by rw [h1 v (by rw [hv]; simp), hv], resolve_grows h2 p a b hp⟩
  have same : m' = m → m'.root v = some a ∧ resolve m'.h a p = .ok (some b) := fun e => by
    subst e; exact ⟨hv, hp⟩
  have hbind : ∀ w h' c, m.root w = none → ∀ u, m.root u ≠ none → (m.bindVar h' w c).root u = m.root u := by
    intro w h' c hw u hu
    have : u ≠ w := fun e => hu (e ▸ hw)
    simp [M.bindVar, this]
  cases q with
  | remove => exact hq.elim
  | removeAt => exact hq.elim
  | clear => exact hq.elim
  | destroy => exact hq.elim
  | assign => exact hq.elim
  | mkVal w t s =>
    simp only [M.step] at hs
    split at hs
    · simp only [Outcome.ok.injEq, Prod.mk.injEq] at hs; exact same hs.1.symm
    · rename_i hw
      simp only [Outcome.ok.injEq, Prod.mk.injEq] at hs
      obtain ⟨rfl, _⟩ := hs
      exact fin (hbind _ _ _ (by simpa using hw)) (bind_grows hi fun x hx => alloc_old _ _ hx)
  | mkNode w t =>
    simp only [M.step] at hs
    split at hs
    · simp only [Outcome.ok.injEq, Prod.mk.injEq] at hs; exact same hs.1.symm
    · rename_i hw
      simp only [Outcome.ok.injEq, Prod.mk.injEq] at hs
      obtain ⟨rfl, _⟩ := hs
      exact fin (hbind _ _ _ (by simpa using hw)) (bind_grows hi fun x hx => alloc_old _ _ hx)
  | copy w kind r =>
    have hsim := step_sim hi (.copy w kind r) (fun _ _ h => by simp at h)
    simp only [M.step] at hs hsim
    split at hs
    · simp only [Outcome.ok.injEq, Prod.mk.injEq] at hs; exact same hs.1.symm
    · rename_i hw
      rcases find_ok hs with h1 | ⟨a', c, g1, g2, g3⟩
      · exact same h1
      · cases hk : kindOf (m.h.cell c) with
        | none => simp [hk] at g3
        | some kd =>
          simp only [hk] at g3
          split at g3
          · simp only [Outcome.ok.injEq, Prod.mk.injEq] at g3; exact same g3.1.symm
          · have hAt : ∃ u n T, At m e F r c u n T := by
              rcases hi.vars r.v with ⟨_, z, _⟩ | ⟨t, a2, n, q1, q2, q3⟩
              · rw [g1] at z; simp at z
              · have hf := focus r.p n a2 t _ q3
                rw [g1] at q2
                simp only [Option.some.injEq] at q2
                subst q2
                cases hg : t.get r.p with
                | none => rw [hg] at hf; simp only [g2, Outcome.ok.injEq] at hf; simp at hf
                | some u =>
                  rw [hg] at hf
                  obtain ⟨b', n', T, e1, f⟩ := hf
                  rw [g2] at e1
                  simp only [Outcome.ok.injEq, Option.some.injEq] at e1
                  subst e1
                  exact ⟨u, n', T, ⟨t, a', q1, g1, f⟩⟩
            obtain ⟨u, n, T, hA⟩ := hAt
            obtain ⟨h', c', e1, _, _, keep⟩ := copyN_ok m.h.next m.h c u T (hA.full hi) (hA.bnd hi)
            simp only [e1, Outcome.map, Outcome.ok.injEq, Prod.mk.injEq] at g3
            obtain ⟨rfl, _⟩ := g3
            exact fin (hbind _ _ _ (by simpa using hw)) (bind_grows hi keep)
  | add r k src =>
    rcases find_ok hs with h1 | ⟨a', c, g1, g2, g3⟩
    · exact same h1
    · obtain ⟨h1, h2⟩ := addTo_grows hi g1 g2 g3
      exact fin (fun w _ => by rw [h1]) h2
  | push r src =>
    rcases find_ok hs with h1 | ⟨a', c, g1, g2, g3⟩
    · exact same h1
    · obtain ⟨h1, h2⟩ := addTo_grows hi g1 g2 g3
      exact fin (fun w _ => by rw [h1]) h2
  | set r t s =>
    rcases find_ok hs with h1 | ⟨a', c, g1, g2, g3⟩
    · exact same h1
    · cases hc : m.h.cell c with
      | free => simp [hc] at g3
      | gone => simp [hc] at g3
      | node kb l => simp only [hc, Outcome.ok.injEq, Prod.mk.injEq] at g3; exact same g3.1.symm
      | val t0 s0 =>
        simp only [hc, Outcome.ok.injEq, Prod.mk.injEq] at g3
        obtain ⟨rfl, _⟩ := g3
        refine fin (fun _ _ => rfl) ?_
        intro y
        by_cases hy : y = c
        · rw [hy, hc]
          exact ⟨t, s, put_same _ _ _⟩
        · have := grows_same (h := m.h) (h' := m.h) (fun _ _ => rfl) y
          show match m.h.cell y with
            | .val _ _ => ∃ t1 s1, (m.h.put c (.val t s)).cell y = .val t1 s1
            | .node b2 l2 => ∃ r, (m.h.put c (.val t s)).cell y = .node b2 (l2 ++ r)
            | _ => True
          rw [put_ne _ _ hy]
          exact this
  | look r =>
    rcases find_ok hs with h1 | ⟨a', c, g1, g2, g3⟩
    · exact same h1
    · cases hc : readN m.h.next m.h c with
      | ub => simp [hc, Outcome.map] at g3
      | hang => simp [hc, Outcome.map] at g3
      | ok t => simp only [hc, Outcome.map, Outcome.ok.injEq, Prod.mk.injEq] at g3; exact same g3.1.symm
  | has r k =>
    rcases find_ok hs with h1 | ⟨a', c, g1, g2, g3⟩
    · exact same h1
    · refine same ?_
      split at g3 <;> simp only [Outcome.ok.injEq, Prod.mk.injEq, reduceCtorEq] at g3 <;> exact g3.1.symm
  | count r =>
    rcases find_ok hs with h1 | ⟨a', c, g1, g2, g3⟩
    · exact same h1
    · refine same ?_
      split at g3 <;> simp only [Outcome.ok.injEq, Prod.mk.injEq, reduceCtorEq] at g3 <;> exact g3.1.symm

/-- **Recorded: an assigned `Object` or `Array` is deleted twice.**  `Object` and `Array` declare no assignment, the one
the compiler makes shares the children: when both variables are gone, the children have been deleted twice. -/
theorem assigned_node_deleted_twice {ops : List Op} (hn : NoAssign ops) {m outs} (hr : M.init.run ops = .ok (m, outs)) {v w a b kind la k c l}
    (hvw : v ≠ w) (hv : m.root v = some a) (hw : m.root w = some b) (ha : m.h.cell a = .node kind la) (hb : m.h.cell b = .node kind ((k, c) :: l)) :
    m.run [.assign v w, .destroy v, .destroy w] = .ub := by
  obtain ⟨F, hi⟩ := run_inv hn hr
  rcases hi.vars v with ⟨_, z, _⟩ | ⟨t, a', n, _, z, r1⟩
  · rw [hv] at z; simp at z
  rw [hv] at z
  simp only [Option.some.injEq] at z
  subst z
  rcases hi.vars w with ⟨_, z, _⟩ | ⟨t2, b', n2, _, z, r2⟩
  · rw [hw] at z; simp at z
  rw [hw] at z
  simp only [Option.some.injEq] at z
  subst z
  cases t2 with
  | val q1 q2 => rw [r2.cellVal.1] at hb; simp at hb
  | node kb ts =>
    obtain ⟨n', l', S', en, h1, h2, h3, h4⟩ := (r2.full (hi.bnd w)).cellNode
    rw [hb] at h1
    simp only [Cell.node.injEq] at h1
    obtain ⟨rfl, rfl⟩ := h1
    have hFa : F v a := r1.root
    have hSa : ¬S' a := fun h => hvw (hi.disj _ _ a hFa ((h4 a).2 (.inr h)))
    have hab : a ≠ b := fun e => hvw (hi.disj _ _ a hFa ((h4 a).2 (.inl e)))
    have hrep : Rep (m.h.put a (.node kind ((k, c) :: l))) (n' + 1) a (.node kind ts) (fun x => x = a ∨ S' x) :=
      ⟨_, S', put_same _ _ _, h2.mono _ _ _ (fun c t S3 g1 g2 => g1.congr _ _ _ _ fun x hx =>
        put_ne _ _ (fun e => hSa (e ▸ g2 x hx))), hSa, fun _ => Iff.rfl⟩
    obtain ⟨h', e1, e2, g, kp⟩ := deleteN_ok _ _ _ _ _ hrep
    have hcS : S' c := by
      cases ts with
      | nil => exact h2.elim
      | cons y ts =>
        obtain ⟨_, S1, S2, q1, _, _, q4⟩ := h2
        exact (q4 c).2 (.inl q1.root)
    have hcg : h'.cell c = .gone := g c (.inr hcS)
    have hbb : h'.cell b = .node kind ((k, c) :: l) := by
      rw [kp b (by rintro (h | h); exact hab h.symm; exact h3 h), put_ne _ _ (Ne.symm hab), hb]
    have hn2 : h'.next = n' + 1 := by rw [e2]; exact en
    have hpos : ∃ n'', n' = n'' + 1 := by
      cases n' with
      | succ q => exact ⟨q, rfl⟩
      | zero =>
        have x1 := hi.bnd _ b ((h4 b).2 (.inl rfl))
        have x2 := hi.bnd _ c ((h4 c).2 (.inr hcS))
        have : b ≠ c := fun e => h3 (e ▸ hcS)
        omega
    obtain ⟨n'', rfl⟩ := hpos
    have e1' : deleteN m.h.next (m.h.put a (.node kind ((k, c) :: l))) a = .ok h' := by rw [en]; exact e1
    have hd : deleteN h'.next h' b = .ub := by
      rw [hn2]
      simp only [deleteN, hbb, eachDel, hcg, Outcome.bind, Outcome.map]
    have s1 : m.step (.assign v w) = .ok ({ m with h := m.h.put a (.node kind ((k, c) :: l)) }, .done) := by
      simp [M.step, hv, hw, ha, hb]
    have s2 : (⟨m.h.put a (.node kind ((k, c) :: l)), m.root⟩ : M).step (.destroy v) =
        .ok (⟨h', fun y => if y = v then none else m.root y⟩, .done) := by
      simp only [M.step, hv]
      rw [show (m.h.put a (.node kind ((k, c) :: l))).next = m.h.next from rfl, e1']
      rfl
    have s3 : (⟨h', fun y => if y = v then none else m.root y⟩ : M).step (.destroy w) = .ub := by
      simp only [M.step, Ne.symm hvw, if_false, hw, hd, Outcome.map]
    simp only [M.run, s1, Outcome.bind, s2, s3, Outcome.map]

end Lms.JsonTree
