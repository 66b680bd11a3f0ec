import Verif.Rewire.Props
import Verif.Wired.Cases

/-! C92: the calls that connect, share and disconnect are the changes of the network. -/

namespace Lms.Rewire

open FilterConn (St RE WE held hasW hasR fed Inv Reach Reg Plain)
open Wired (Conn Reads Writes Describes)
open Net (Graph)
open Pool (set_ne)

variable {α : Type}

theorem conn_iff {s : St} (hi : Inv s) (q : Nat) : Conn s q ↔ hasW s q ∧ hasR s q :=
  ⟨fun ⟨f, w, h⟩ => hi.conn q f w h, fun ⟨a, b⟩ => hi.both q a b⟩

theorem reads_hasR {s : St} {k q : Nat} (h : Reads s k q) : hasR s q := by
  obtain ⟨e, h1, _, o, h3, h4⟩ := h
  exact ⟨o, ⟨e, h1, h3⟩, h4⟩

theorem writes_hasW {s : St} {k q : Nat} (h : Writes s k q) : hasW s q := by
  obtain ⟨e, h1, _, h2⟩ := h
  exact ⟨e, h1, h2⟩

/-- `Describes` without the queues. -/
structure Desc (g : Graph) (s : St) : Prop where
  ins : ∀ k q, q ∈ g.ins k ↔ hasW s q ∧ Reads s k q
  outs : ∀ k q, q ∈ g.outs k ↔ hasR s q ∧ Writes s k q
  outsOnce : ∀ k, (g.outs k).Nodup
  src : ∀ e ∈ s.ws, hasR s e.q → g.src e.q = e.f
  dst : ∀ q o, hasW s q → held s o → (s.rdr o).queue = some q → g.dst q = (s.rdr o).filters
  none : ∀ q, ¬ (hasW s q ∧ hasR s q) → g.dst q = []

theorem desc_iff {g : Graph} {s : St} (hi : Inv s) : Describes g s ↔ Desc g s := by
  constructor
  · intro h
    refine ⟨fun k q => ?_, fun k q => ?_, h.outsOnce, fun e he hr => ?_, fun q o hw ho hq => ?_, fun q hq => ?_⟩
    · rw [h.ins, conn_iff hi]
      exact ⟨fun a => ⟨a.1.1, a.2⟩, fun a => ⟨⟨a.1, reads_hasR a.2⟩, a.2⟩⟩
    · rw [h.outs, conn_iff hi]
      exact ⟨fun a => ⟨a.1.2, a.2⟩, fun a => ⟨⟨writes_hasW a.2, a.1⟩, a.2⟩⟩
    · obtain ⟨f, w, hc⟩ := hi.both e.q ⟨e, he, rfl⟩ hr
      obtain ⟨c, hc'⟩ := hi.wCell e he
      rw [hc] at hc'
      cases hc'
      exact h.src _ _ _ hc
    · exact h.dst q o ((conn_iff hi q).2 ⟨hw, o, ho, hq⟩) ho hq
    · exact h.none q fun hc => hq ((conn_iff hi q).1 hc)
  · intro h
    refine ⟨fun k q => ?_, fun k q => ?_, h.outsOnce, fun q f w hc => ?_, fun q o hc ho hq => ?_, fun q hq => ?_⟩
    · rw [h.ins, conn_iff hi]
      exact ⟨fun a => ⟨⟨a.1, reads_hasR a.2⟩, a.2⟩, fun a => ⟨a.1.1, a.2⟩⟩
    · rw [h.outs, conn_iff hi]
      exact ⟨fun a => ⟨⟨writes_hasW a.2, a.1⟩, a.2⟩, fun a => ⟨a.1.2, a.2⟩⟩
    · obtain ⟨⟨e, he, rfl⟩, hr⟩ := hi.conn q f w hc
      obtain ⟨c, hc'⟩ := hi.wCell e he
      rw [hc] at hc'
      cases hc'
      exact h.src e he hr
    · exact h.dst q o ((conn_iff hi q).1 hc).1 ho hq
    · exact h.none q fun hc => hq ((conn_iff hi q).2 hc)

/-- Ends that have lost their other end come and go without a trace. -/
theorem desc_same {g : Graph} {s t : St} (h : Desc g s)
    (w1 : ∀ e ∈ t.ws, e ∈ s.ws) (w2 : ∀ e ∈ s.ws, hasR s e.q → e ∈ t.ws)
    (r1 : ∀ e ∈ t.rs, ∀ o, e.obj = some o → e ∈ s.rs) (r2 : ∀ e ∈ s.rs, ∀ o, e.obj = some o → fed s o → e ∈ t.rs)
    (d1 : ∀ o, held s o → fed s o → t.rdr o = s.rdr o)
    (d2 : ∀ o q, held t o → (t.rdr o).queue = some q → (s.rdr o).queue = some q) : Desc g t := by
  have hw : ∀ q, hasW t q → hasW s q := fun q ⟨e, a, b⟩ => ⟨e, w1 e a, b⟩
  have hr : ∀ q, hasR t q → hasR s q := fun q ⟨o, ⟨e, a, b⟩, c⟩ => ⟨o, ⟨e, r1 e a o b, b⟩, d2 o q ⟨e, a, b⟩ c⟩
  have hw' : ∀ q, hasW s q → hasR s q → hasW t q := fun q ⟨e, a, b⟩ c => ⟨e, w2 e a (b ▸ c), b⟩
  have hr' : ∀ q, hasW s q → hasR s q → hasR t q := by
    rintro q hq ⟨o, ⟨e, a, b⟩, c⟩
    have hf : fed s o := ⟨q, c, hq⟩
    exact ⟨o, ⟨e, r2 e a o b hf, b⟩, by rw [d1 o ⟨e, a, b⟩ hf]; exact c⟩
  refine ⟨fun k q => ?_, fun k q => ?_, h.outsOnce, fun e he hq => ?_, fun q o hq ho hq' => ?_, fun q hq => ?_⟩
  · rw [h.ins]
    constructor
    · rintro ⟨a, b⟩
      have := reads_hasR b
      obtain ⟨e, e1, e2, o, e3, e4⟩ := b
      have hf : fed s o := ⟨q, e4, a⟩
      exact ⟨hw' q a this, e, r2 e e1 o e3 hf, e2, o, e3, by rw [d1 o ⟨e, e1, e3⟩ hf]; exact e4⟩
    · rintro ⟨a, e, e1, e2, o, e3, e4⟩
      exact ⟨hw q a, e, r1 e e1 o e3, e2, o, e3, d2 o q ⟨e, e1, e3⟩ e4⟩
  · rw [h.outs]
    constructor
    · rintro ⟨a, e, e1, e2, rfl⟩
      exact ⟨hr' _ ⟨e, e1, rfl⟩ a, e, w2 e e1 a, e2, rfl⟩
    · rintro ⟨a, e, e1, e2, rfl⟩
      exact ⟨hr _ a, e, w1 e e1, e2, rfl⟩
  · exact h.src e (w1 e he) (hr _ hq)
  · have hs : held s o := by obtain ⟨e, a, b⟩ := ho; exact ⟨e, r1 e a o b, b⟩
    have e := d2 o q ho hq'
    rw [d1 o hs ⟨q, e, hw q hq⟩]
    exact h.dst q o (hw q hq) hs e
  · exact h.none q fun ⟨a, b⟩ => hq ⟨hw' q a b, hr' q a b⟩

/-- A successful connect. -/
theorem desc_connect {g : Graph} {s : St} (hi : Inv s) (h : Desc g s) (w r : Nat) (wid rid : Int) :
    Desc (link g w r s.nextQ) (FilterConn.connected s w r wid rid) := by
  have hrs : (FilterConn.connected s w r wid rid).rs = s.rs ++ [⟨r, rid, some s.nextR⟩] := rfl
  have hws : (FilterConn.connected s w r wid rid).ws = s.ws ++ [⟨w, wid, s.nextQ⟩] := rfl
  have rn : (FilterConn.connected s w r wid rid).rdr s.nextR = ⟨some s.nextQ, [r]⟩ := FilterConn.upd_same _ _ _
  have ro : ∀ o, o ≠ s.nextR → (FilterConn.connected s w r wid rid).rdr o = s.rdr o := fun o ho => FilterConn.upd_other _ _ ho
  generalize FilterConn.connected s w r wid rid = t at hrs hws rn ro
  have fq : s.cell s.nextQ = .none := hi.freshQ _ (Nat.le_refl _)
  have nw : ∀ e ∈ s.ws, e.q ≠ s.nextQ := by
    intro e he hh
    obtain ⟨c, hc⟩ := hi.wCell e he
    rw [hh, fq] at hc; cases hc
  have nr : ∀ o, held s o → (s.rdr o).queue ≠ some s.nextQ := by
    intro o ho hh
    obtain ⟨c, f, w', hc⟩ := hi.rCell o ho _ hh
    rw [fq] at hc; cases hc
  have ne : ∀ o, held s o → o ≠ s.nextR := fun o ho hh => by have := hi.freshR o ho; omega
  have me : ∀ e, e ∈ t.rs ↔ e ∈ s.rs ∨ e = ⟨r, rid, some s.nextR⟩ := by intro e; rw [hrs]; simp
  have mw : ∀ e, e ∈ t.ws ↔ e ∈ s.ws ∨ e = ⟨w, wid, s.nextQ⟩ := by intro e; rw [hws]; simp
  have hW : ∀ q, hasW t q ↔ hasW s q ∨ q = s.nextQ := by
    intro q
    constructor
    · rintro ⟨e, a, b⟩
      rcases (mw e).1 a with a | rfl
      · exact .inl ⟨e, a, b⟩
      · exact .inr b.symm
    · rintro (⟨e, a, b⟩ | rfl)
      · exact ⟨e, (mw e).2 (.inl a), b⟩
      · exact ⟨_, (mw _).2 (.inr rfl), rfl⟩
  have rd : ∀ k q, Reads t k q ↔ Reads s k q ∨ (k = r ∧ q = s.nextQ) := by
    intro k q
    constructor
    · rintro ⟨e, a, rfl, o, b, c⟩
      rcases (me e).1 a with a | rfl
      · rw [ro o (ne o ⟨e, a, b⟩)] at c
        exact .inl ⟨e, a, rfl, o, b, c⟩
      · cases b
        rw [rn] at c
        cases c
        exact .inr ⟨rfl, rfl⟩
    · rintro (⟨e, a, rfl, o, b, c⟩ | ⟨rfl, rfl⟩)
      · exact ⟨e, (me e).2 (.inl a), rfl, o, b, by rw [ro o (ne o ⟨e, a, b⟩)]; exact c⟩
      · exact ⟨_, (me _).2 (.inr rfl), rfl, _, rfl, by rw [rn]⟩
  have hR : ∀ q, hasR t q ↔ hasR s q ∨ q = s.nextQ := by
    intro q
    constructor
    · rintro ⟨o, ⟨e, a, b⟩, c⟩
      rcases (rd e.f q).1 ⟨e, a, rfl, o, b, c⟩ with h | h
      · exact .inl (reads_hasR h)
      · exact .inr h.2
    · rintro (⟨o, ⟨e, a, b⟩, c⟩ | rfl)
      · exact reads_hasR ((rd e.f q).2 (.inl ⟨e, a, rfl, o, b, c⟩))
      · exact reads_hasR ((rd r _).2 (.inr ⟨rfl, rfl⟩))
  have nW : ¬ hasW s s.nextQ := fun ⟨e, a, b⟩ => nw e a b
  have nR : ¬ hasR s s.nextQ := fun ⟨o, a, b⟩ => nr o a b
  refine ⟨fun k q => ?_, fun k q => ?_, fun k => ?_, fun e he hq => ?_, fun q o hq ho hq' => ?_, fun q hq => ?_⟩
  · rw [link_ins, h.ins, hW, rd]
    constructor
    · rintro (⟨a, b⟩ | ⟨rfl, rfl⟩)
      · exact ⟨.inl a, .inl b⟩
      · exact ⟨.inr rfl, .inr ⟨rfl, rfl⟩⟩
    · rintro ⟨a | rfl, b | ⟨b, c⟩⟩
      · exact .inl ⟨a, b⟩
      · exact .inr ⟨b, c⟩
      · exact absurd (reads_hasR b) nR
      · exact .inr ⟨b, rfl⟩
  · rw [link_outs, h.outs, hR]
    constructor
    · rintro (⟨a, e, b, c, d⟩ | ⟨rfl, rfl⟩)
      · exact ⟨.inl a, e, (mw e).2 (.inl b), c, d⟩
      · exact ⟨.inr rfl, _, (mw _).2 (.inr rfl), rfl, rfl⟩
    · rintro ⟨a, e, b, rfl, rfl⟩
      rcases (mw e).1 b with b | rfl
      · rcases a with a | a
        · exact .inl ⟨a, e, b, rfl, rfl⟩
        · exact absurd a (nw e b)
      · exact .inr ⟨rfl, rfl⟩
  · show (Pool.set g.outs w _ k).Nodup
    by_cases e : k = w
    · subst e
      rw [Pool.set_same, List.nodup_append]
      refine ⟨h.outsOnce k, by simp, ?_⟩
      intro a ha b hb hab
      rw [List.mem_singleton] at hb
      subst hb hab
      exact nR ((h.outs _ _).1 ha).1
    · rw [set_ne _ _ e]; exact h.outsOnce k
  · show Pool.set g.src _ _ _ = _
    rcases (mw e).1 he with a | rfl
    · rw [set_ne _ _ (nw e a)]
      rcases (hR _).1 hq with b | b
      · exact h.src e a b
      · exact absurd b (nw e a)
    · exact Pool.set_same _ _ _
  · show Pool.set g.dst _ _ _ = _
    obtain ⟨e, a, b⟩ := ho
    rcases (me e).1 a with a | rfl
    · have hs : held s o := ⟨e, a, b⟩
      rw [ro o (ne o hs)] at hq' ⊢
      have hn : q ≠ s.nextQ := by rintro rfl; exact nr o hs hq'
      rw [set_ne _ _ hn]
      exact h.dst q o (((hW q).1 hq).resolve_right hn) hs hq'
    · cases b
      rw [rn] at hq' ⊢
      cases hq'
      exact Pool.set_same _ _ _
  · show Pool.set g.dst _ _ _ = _
    rw [hW, hR] at hq
    have hn : q ≠ s.nextQ := by rintro rfl; exact hq ⟨.inr rfl, .inr rfl⟩
    rw [set_ne _ _ hn]
    exact h.none q fun ⟨a, b⟩ => hq ⟨.inl a, .inl b⟩

/-- One more filter on a reader in use. -/
theorem desc_share {g : Graph} {s t : St} (hi : Inv s) (h : Desc g s) {o q k : Nat} {id : Int} (ho : held s o) (hq : (s.rdr o).queue = some q)
    (hw : hasW s q)
    (r1 : ∀ e, e ∈ t.rs ↔ (e ∈ s.rs ∧ ¬ (e.f = k ∧ e.id = id)) ∨ e = ⟨k, id, some o⟩)
    (r2 : ∀ e ∈ s.rs, e.f = k ∧ e.id = id → ∀ p, e.obj = some p → ¬ fed s p)
    (ws : t.ws = s.ws) (d1 : (t.rdr o).queue = some q) (d2 : (t.rdr o).filters = (s.rdr o).filters ++ [k])
    (d3 : ∀ p, p ≠ o → held t p → t.rdr p = s.rdr p) : Desc (join g q k) t := by
  have hW : ∀ p, hasW t p ↔ hasW s p := fun p => by unfold hasW; rw [ws]
  have keep : ∀ e ∈ s.rs, ∀ p, e.obj = some p → fed s p → e ∈ t.rs := fun e he p hp hf =>
    (r1 e).2 (.inl ⟨he, fun hk => r2 e he hk p hp hf⟩)
  have qd : ∀ p, held t p → (t.rdr p).queue = (s.rdr p).queue := by
    intro p hp
    by_cases e : p = o
    · subst e; rw [d1, hq]
    · rw [d3 p e hp]
  have hs : ∀ p, held t p → held s p := by
    rintro p ⟨e, a, b⟩
    rcases (r1 e).1 a with a | rfl
    · exact ⟨e, a.1, b⟩
    · cases b; exact ho
  have rd : ∀ j p, hasW s p → (Reads t j p ↔ Reads s j p ∨ (j = k ∧ p = q)) := by
    intro j p hp
    constructor
    · rintro ⟨e, a, rfl, x, b, c⟩
      rw [qd x ⟨e, a, b⟩] at c
      rcases (r1 e).1 a with a | rfl
      · exact .inl ⟨e, a.1, rfl, x, b, c⟩
      · cases b
        rw [hq] at c
        cases c
        exact .inr ⟨rfl, rfl⟩
    · rintro (⟨e, a, rfl, x, b, c⟩ | ⟨rfl, rfl⟩)
      · have := keep e a x b ⟨p, c, hp⟩
        exact ⟨e, this, rfl, x, b, by rw [qd x ⟨e, this, b⟩]; exact c⟩
      · exact ⟨_, (r1 _).2 (.inr rfl), rfl, o, rfl, d1⟩
  have hR : ∀ p, hasW s p → (hasR t p ↔ hasR s p) := by
    intro p hp
    constructor
    · rintro ⟨x, a, b⟩
      rw [qd x a] at b
      exact ⟨x, hs x a, b⟩
    · rintro ⟨x, ⟨e, a, b⟩, c⟩
      exact reads_hasR ((rd e.f p hp).2 (.inl ⟨e, a, rfl, x, b, c⟩))
  refine ⟨fun j p => ?_, fun j p => ?_, h.outsOnce, fun e he hp => ?_, fun p x hp hx hp' => ?_, fun p hp => ?_⟩
  · rw [join_ins, h.ins, hW]
    constructor
    · rintro (⟨a, b⟩ | ⟨rfl, rfl⟩)
      · exact ⟨a, (rd j p a).2 (.inl b)⟩
      · exact ⟨hw, (rd _ _ hw).2 (.inr ⟨rfl, rfl⟩)⟩
    · rintro ⟨a, b⟩
      exact ((rd j p a).1 b).imp (fun b => ⟨a, b⟩) (fun b => b)
  · show p ∈ g.outs j ↔ _
    rw [h.outs]
    constructor
    · rintro ⟨a, b⟩
      refine ⟨(hR p (writes_hasW b)).2 a, ?_⟩
      unfold Writes; rw [ws]; exact b
    · rintro ⟨a, b⟩
      unfold Writes at b
      rw [ws] at b
      exact ⟨(hR p (writes_hasW b)).1 a, b⟩
  · rw [ws] at he
    exact h.src e he ((hR _ ⟨e, he, rfl⟩).1 hp)
  · show Pool.set g.dst q _ p = _
    rw [hW] at hp
    by_cases e : p = q
    · subst e
      rw [qd x hx] at hp'
      have := hi.rInj x o p (hs x hx) ho hp' hq
      subst this
      rw [Pool.set_same, d2, h.dst p x hp ho hq]
    · rw [set_ne _ _ e]
      have hn : x ≠ o := by rintro rfl; rw [d1] at hp'; exact e (Option.some.inj hp').symm
      rw [d3 x hn hx] at hp' ⊢
      exact h.dst p x hp (hs x hx) hp'
  · show Pool.set g.dst q _ p = _
    rw [hW] at hp
    have hn : ¬ (hasW s p ∧ hasR s p) := fun ⟨a, b⟩ => hp ⟨a, (hR p a).2 b⟩
    have e : p ≠ q := by rintro rfl; exact hn ⟨hw, o, ho, hq⟩
    rw [set_ne _ _ e]
    exact h.none p hn

/-- A filter leaves a reader in use. -/
theorem desc_leave {g : Graph} {s t : St} (hi : Inv s) (hg : Reg s) (hb : Wired.Back s) (h : Desc g s) {o q f : Nat} {id : Int}
    (he : (⟨f, id, some o⟩ : RE) ∈ s.rs) (hq : (s.rdr o).queue = some q) (hw : hasW s q)
    (rs : ∀ e, e ∈ t.rs ↔ e ∈ s.rs ∧ ¬ (e.f = f ∧ e.id = id)) (ws : t.ws = s.ws)
    (d1 : ∀ p, held t p → (t.rdr p).queue = (s.rdr p).queue) (d2 : ∀ p, p ≠ o → t.rdr p = s.rdr p)
    (d3 : held t o → (t.rdr o).filters = (s.rdr o).filters.filter (· ≠ f)) :
    f ∈ g.dst q ∧ ((∃ j ∈ g.dst q, j ≠ f) → Desc (unjoin g q f) t) ∧ ((∀ j ∈ g.dst q, j = f) → Desc (unlink g q) t) := by
  have ho : held s o := ⟨_, he, rfl⟩
  have hd := h.dst q o hw ho hq
  obtain ⟨b1, _⟩ := hb o ho ⟨q, hq, hw⟩
  have hW : ∀ p, hasW t p ↔ hasW s p := fun p => by unfold hasW; rw [ws]
  have hs : ∀ p, held t p → held s p := fun p ⟨e, a, b⟩ => ⟨e, ((rs e).1 a).1, b⟩
  have rd : ∀ j p, Reads t j p ↔ Reads s j p ∧ ¬ (j = f ∧ p = q) := by
    intro j p
    constructor
    · rintro ⟨e, a, rfl, x, b, c⟩
      rw [d1 x ⟨e, a, b⟩] at c
      obtain ⟨a1, a2⟩ := (rs e).1 a
      refine ⟨⟨e, a1, rfl, x, b, c⟩, fun ⟨k1, k2⟩ => ?_⟩
      subst k2
      have := hi.rInj x o p ⟨e, a1, b⟩ ho c hq
      subst this
      rw [hg.one e a1 _ he k1 x b rfl] at a2
      exact a2 ⟨rfl, rfl⟩
    · rintro ⟨⟨e, a, rfl, x, b, c⟩, hn⟩
      have : e ∈ t.rs := by
        refine (rs e).2 ⟨a, fun hk => ?_⟩
        have := hi.rUnique a he hk
        subst this
        cases b
        rw [hq] at c
        cases c
        exact hn ⟨rfl, rfl⟩
      exact ⟨e, this, rfl, x, b, by rw [d1 x ⟨e, this, b⟩]; exact c⟩
  have hr : ∀ p, hasR t p → hasR s p := fun p ⟨x, a, b⟩ => ⟨x, hs x a, by rw [← d1 x a]; exact b⟩
  have hr' : ∀ p, p ≠ q → hasR s p → hasR t p := by
    rintro p hp ⟨x, ⟨e, a, b⟩, c⟩
    exact reads_hasR ((rd e.f p).2 ⟨⟨e, a, rfl, x, b, c⟩, fun hh => hp hh.2⟩)
  have hwr : ∀ j p, Writes t j p ↔ Writes s j p := fun j p => by unfold Writes; rw [ws]
  refine ⟨by rw [hd]; exact (hg.reg _ he o rfl).1, ?_, ?_⟩
  · rintro ⟨j, j1, j2⟩
    have hR : ∀ p, hasR t p ↔ hasR s p := by
      intro p
      refine ⟨hr p, fun hp => ?_⟩
      by_cases e : p = q
      · subst e
        rw [hd] at j1
        obtain ⟨e, e1, rfl, e2⟩ := b1 j j1
        exact reads_hasR ((rd e.f p).2 ⟨⟨e, e1, rfl, o, e2, hq⟩, fun hh => j2 hh.1⟩)
      · exact hr' p e hp
    refine ⟨fun k p => ?_, fun k p => ?_, h.outsOnce, fun e he' hp => ?_, fun p x hp hx hp' => ?_, fun p hp => ?_⟩
    · rw [unjoin_ins, h.ins, hW, rd, and_assoc]
    · show p ∈ g.outs k ↔ _
      rw [h.outs, hR, hwr]
    · rw [ws] at he'
      exact h.src e he' (hr _ hp)
    · show Pool.set g.dst q _ p = _
      rw [hW] at hp
      rw [d1 x hx] at hp'
      by_cases e : p = q
      · subst e
        have := hi.rInj x o p (hs x hx) ho hp' hq
        subst this
        rw [Pool.set_same, d3 hx, hd]
      · rw [set_ne _ _ e]
        have hn : x ≠ o := by rintro rfl; rw [hq] at hp'; exact e (Option.some.inj hp').symm
        rw [d2 x hn]
        exact h.dst p x hp (hs x hx) hp'
    · show Pool.set g.dst q _ p = _
      rw [hW, hR] at hp
      have e : p ≠ q := by rintro rfl; exact hp ⟨hw, o, ho, hq⟩
      rw [set_ne _ _ e]
      exact h.none p hp
  · intro hall
    have only : ∀ k, Reads s k q → k = f := by
      rintro k ⟨e, a, rfl, x, b, c⟩
      have := hi.rInj x o q ⟨e, a, b⟩ ho c hq
      subst this
      apply hall
      rw [hd]
      exact (hg.reg e a x b).1
    have hR : ∀ p, hasR t p ↔ hasR s p ∧ p ≠ q := by
      intro p
      constructor
      · intro hp
        refine ⟨hr p hp, ?_⟩
        rintro rfl
        obtain ⟨x, ⟨e, a, b⟩, c⟩ := hp
        obtain ⟨u, v⟩ := (rd e.f p).1 ⟨e, a, rfl, x, b, c⟩
        exact v ⟨only _ u, rfl⟩
      · exact fun ⟨a, b⟩ => hr' p b a
    refine ⟨fun k p => ?_, fun k p => ?_, fun k => (h.outsOnce k).filter _, fun e he' hp => ?_, fun p x hp hx hp' => ?_, fun p hp => ?_⟩
    · rw [unlink_ins, h.ins, hW, rd]
      constructor
      · rintro ⟨⟨a, b⟩, c⟩
        exact ⟨a, b, fun hh => c hh.2⟩
      · rintro ⟨a, b, c⟩
        refine ⟨⟨a, b⟩, ?_⟩
        rintro rfl
        exact c ⟨only k b, rfl⟩
    · rw [unlink_outs, h.outs, hR, hwr]
      exact ⟨fun ⟨⟨a, b⟩, c⟩ => ⟨⟨a, c⟩, b⟩, fun ⟨⟨a, c⟩, b⟩ => ⟨⟨a, b⟩, c⟩⟩
    · rw [ws] at he'
      exact h.src e he' (hr _ hp)
    · show Pool.set g.dst q _ p = _
      have e : p ≠ q := ((hR p).1 ⟨x, hx, hp'⟩).2
      rw [hW] at hp
      rw [d1 x hx] at hp'
      rw [set_ne _ _ e]
      have hn : x ≠ o := by rintro rfl; rw [hq] at hp'; exact e (Option.some.inj hp').symm
      rw [d2 x hn]
      exact h.dst p x hp (hs x hx) hp'
    · show Pool.set g.dst q _ p = _
      by_cases e : p = q
      · subst e; exact Pool.set_same _ _ _
      · rw [set_ne _ _ e]
        rw [hW, hR] at hp
        exact h.none p fun ⟨a, b⟩ => hp ⟨a, b, e⟩

/-- The writer of a queue in use leaves. -/
theorem desc_writer {g : Graph} {s t : St} (hi : Inv s) (h : Desc g s) {q f : Nat} {id : Int} (he : (⟨f, id, q⟩ : WE) ∈ s.ws)
    (ws : t.ws = s.ws.filter fun x => ¬ (x.f = f ∧ x.id = id)) (rs : t.rs = s.rs) (rdr : t.rdr = s.rdr) : Desc (unlink g q) t := by
  have mw : ∀ e, e ∈ t.ws ↔ e ∈ s.ws ∧ e.q ≠ q := by
    intro e
    rw [ws]
    simp only [List.mem_filter, decide_eq_true_eq]
    refine and_congr_right fun a => not_congr ⟨fun hk => ?_, fun hk => ?_⟩
    · rw [hi.wUnique a he hk]
    · rw [hi.wInj a he hk]; exact ⟨rfl, rfl⟩
  have hW : ∀ p, hasW t p ↔ hasW s p ∧ p ≠ q := by
    intro p
    constructor
    · rintro ⟨e, a, rfl⟩
      obtain ⟨a, b⟩ := (mw e).1 a
      exact ⟨⟨e, a, rfl⟩, b⟩
    · rintro ⟨⟨e, a, rfl⟩, b⟩
      exact ⟨e, (mw e).2 ⟨a, b⟩, rfl⟩
  have hh : ∀ o, held t o ↔ held s o := fun o => by unfold held; rw [rs]
  have hR : ∀ p, hasR t p ↔ hasR s p := fun p => by unfold hasR held; rw [rs, rdr]
  have rd : ∀ k p, Reads t k p ↔ Reads s k p := fun k p => by unfold Reads; rw [rs, rdr]
  refine ⟨fun k p => ?_, fun k p => ?_, fun k => (h.outsOnce k).filter _, fun e he' hp => ?_, fun p x hp hx hp' => ?_, fun p hp => ?_⟩
  · rw [unlink_ins, h.ins, hW, rd]
    exact ⟨fun ⟨⟨a, b⟩, c⟩ => ⟨⟨a, c⟩, b⟩, fun ⟨⟨a, c⟩, b⟩ => ⟨⟨a, b⟩, c⟩⟩
  · rw [unlink_outs, h.outs, hR]
    constructor
    · rintro ⟨⟨a, e, b, c, rfl⟩, d⟩
      exact ⟨a, e, (mw e).2 ⟨b, d⟩, c, rfl⟩
    · rintro ⟨a, e, b, c, rfl⟩
      obtain ⟨b, d⟩ := (mw e).1 b
      exact ⟨⟨a, e, b, c, rfl⟩, d⟩
  · rw [hR] at hp
    exact h.src e ((mw e).1 he').1 hp
  · show Pool.set g.dst q _ p = _
    obtain ⟨a, b⟩ := (hW p).1 hp
    rw [set_ne _ _ b, rdr]
    rw [rdr] at hp'
    exact h.dst p x a ((hh x).1 hx) hp'
  · show Pool.set g.dst q _ p = _
    by_cases e : p = q
    · subst e; exact Pool.set_same _ _ _
    · rw [set_ne _ _ e]
      rw [hW, hR] at hp
      exact h.none p fun ⟨a, b⟩ => hp ⟨⟨a, e⟩, b⟩

/-- The readers a round deletes are not in use. -/
theorem desc_sweepR {g : Graph} {strict : Bool} : ∀ (l : List RE) {s t : St}, FilterConn.sweepListR s strict l = .ok t → Inv s →
    (∀ e ∈ l, e ∈ s.rs) → (l.Pairwise fun a b => ¬ (a.f = b.f ∧ a.id = b.id)) → Desc g s → Desc g t := by
  intro l
  induction l with
  | nil => intro s t h _ _ _ hd; cases h; exact hd
  | cons x l ih =>
    intro s t h hi hl hp hd
    obtain ⟨hx, hpl⟩ := List.pairwise_cons.1 hp
    have hxm := hl x (List.mem_cons_self ..)
    obtain ⟨f, id, ob⟩ := x
    cases ob with
    | none =>
      unfold FilterConn.sweepListR at h
      cases strict with
      | true => rw [if_pos rfl] at h; cases h
      | false => rw [if_neg (by decide)] at h; exact ih h hi (fun e he => hl e (List.mem_cons_of_mem _ he)) hpl hd
    | some o =>
      obtain ⟨c, hc, hcf⟩ := FilterConn.rConnected_ok hi (o := o) ⟨_, hxm, rfl⟩
      unfold FilterConn.sweepListR at h
      rw [hc] at h
      simp only [Outcome.bind_ok] at h
      cases c with
      | true => rw [if_pos rfl] at h; exact ih h hi (fun e he => hl e (List.mem_cons_of_mem _ he)) hpl hd
      | false =>
        rw [if_neg (by decide)] at h
        have hnf : ¬ fed s o := fun hf => by have := hcf.2 hf; cases this
        obtain ⟨s1, e1, i1, r1, w1, p1, _, _, _, _, _, q1, _⟩ := FilterConn.deleteReader_ok hi hxm true
        rw [e1] at h
        simp only [Outcome.bind_ok] at h
        have hm : ∀ e, e ∈ s1.rs ↔ e ∈ s.rs ∧ ¬ (e.f = f ∧ e.id = id) := fun e => by rw [r1]; exact FilterConn.filter_mem_iff e
        refine ih h i1 (fun e he => ?_) hpl (desc_same hd (fun e he => w1 ▸ he) (fun e he _ => by rw [w1]; exact he)
          (fun e he _ _ => ((hm e).1 he).1) (fun e he p hp hf => (hm e).2 ⟨he, fun hk => ?_⟩) (fun p _ hf => p1 p ?_) (fun p q hp hq => ?_))
        · exact (hm e).2 ⟨hl e (List.mem_cons_of_mem _ he), fun h => hx e he ⟨h.1.symm, h.2.symm⟩⟩
        · have := hi.rUnique he hxm hk
          subst this
          cases hp
          exact hnf hf
        · rintro rfl; exact hnf hf
        · by_cases e : p = o
          · subst e
            rcases q1 with q1 | q1
            · rw [← q1]; exact hq
            · rw [q1] at hq; cases hq
          · rw [← p1 p e]; exact hq

/-- What a call does to the network: connecting adds a queue between the two, sharing adds a filter to the reader
of a queue, disconnecting takes a filter from a reader it shares or ends the queue; where there is nothing in
use, and in rounds, nothing changes. -/
def Does (s : St) (x x' : D α) (size : Nat) (d : Nat → α) (b : Bool) : FilterConn.Op → Prop
  | .connect w r _ _ _ => if b then ∃ q, x.live q = false ∧ w ≠ r ∧ x.step (.connect w r q size d) = .ok (x', .linked q) else x' = x
  | .share f k _ fid _ => if b then ∃ o q, ⟨f, fid, some o⟩ ∈ s.rs ∧ (s.rdr o).queue = some q ∧ q ∈ x.g.ins f ∧ k ∉ x.g.dst q ∧
      x.step (.share q k) = .ok (x', .joined q k) else x' = x
  | .disconnectR f id _ => (∃ o q, ⟨f, id, some o⟩ ∈ s.rs ∧ (s.rdr o).queue = some q ∧ q ∈ x.g.ins f ∧ f ∈ x.g.dst q ∧
      ((∃ j ∈ x.g.dst q, j ≠ f) ∧ x.step (.leave q f) = .ok (x', .left q f) ∨
        (∀ j ∈ x.g.dst q, j = f) ∧ x.step (.cut q) = .ok (x', .cut q))) ∨
      (∀ o q, ⟨f, id, some o⟩ ∈ s.rs → (s.rdr o).queue = some q → ¬ Conn s q) ∧ x' = x
  | .disconnectW f id _ => (∃ q, ⟨f, id, q⟩ ∈ s.ws ∧ q ∈ x.g.outs f ∧ x.step (.cut q) = .ok (x', .cut q)) ∨
      (∀ q, ⟨f, id, q⟩ ∈ s.ws → ¬ Conn s q) ∧ x' = x
  | .roundW _ => x' = x
  | .roundR _ _ => x' = x

/-- **C92.** The calls that connect, share and disconnect filters, and the clearing of lost ends at the start of
a round, do to the network of the filters just what the changes above do (none being given the same reader
twice). -/
theorem calls_are_changes {mr mw : Nat → Nat} {s t : St} (h : Reach mr mw s) {op : FilterConn.Op} {b : Bool} (hp : Plain s op)
    (hs : FilterConn.step s op = .ok (t, b)) {x : D α} (hd : Describes x.g s) (hl : ∀ q, x.live q = true ↔ Conn s q)
    (size : Nat) (d : Nat → α) :
    ∃ x', Does s x x' size d b op ∧ Describes x'.g t ∧ ∀ q, x'.live q = true ↔ Conn t q := by
  obtain ⟨hi, hg⟩ := FilterConn.reach_inv h
  have hb := Wired.reach_back h
  have hit : Inv t := (FilterConn.reach_inv (.step h hp hs)).1
  have hD := (desc_iff hi).1 hd
  -- the queues in use are those a network tells
  have tell : ∀ {g : Graph} {u : St}, Inv u → Desc g u → ∀ q, Conn u q ↔ ∃ k, q ∈ g.ins k := by
    intro g u hu hdu q
    rw [conn_iff hu]
    constructor
    · rintro ⟨a, o, ⟨e, e1, e2⟩, c⟩
      exact ⟨e.f, (hdu.ins _ _).2 ⟨a, e, e1, rfl, o, e2, c⟩⟩
    · rintro ⟨k, hk⟩
      obtain ⟨a, c⟩ := (hdu.ins _ _).1 hk
      exact ⟨a, reads_hasR c⟩
  have same : Desc x.g t → ∃ x' : D α, x' = x ∧ Describes x'.g t ∧ ∀ q, x'.live q = true ↔ Conn t q := by
    intro hDt
    refine ⟨x, rfl, (desc_iff hit).2 hDt, fun q => ?_⟩
    rw [hl, tell hi hD, tell hit hDt]
  cases op with
  | connect w r wid rid a =>
    simp only [FilterConn.step] at hs
    by_cases hne : w = r
    · unfold FilterConn.connect at hs; rw [if_pos hne] at hs; cases hs
    obtain ⟨t', b', h1, hcs⟩ := FilterConn.connect_ok hi wid rid a hne
    rw [h1] at hs; cases hs
    rcases hcs with ⟨rfl, rfl, _⟩ | ⟨rfl, rfl, _⟩ | ⟨rfl, rfl, _⟩ | ⟨rfl, rfl, _⟩
    · have hDt := desc_connect hi hD w r wid rid
      have hn : ¬ Conn s s.nextQ := by
        rintro ⟨f, w', hc⟩
        rw [hi.freshQ _ (Nat.le_refl _)] at hc; cases hc
      refine ⟨{ g := link x.g w r s.nextQ
                s := { x.s with rd := Pool.set x.s.rd s.nextQ (SharedReader.Rd.create (FrameQueue.Ring.create size d) r) }
                live := Pool.set x.live s.nextQ true }, ?_, (desc_iff hit).2 hDt, fun q => ?_⟩
      · simp only [Does, if_true]
        refine ⟨s.nextQ, ?_, hne, rfl⟩
        cases hx : x.live s.nextQ with
        | false => rfl
        | true => exact absurd ((hl _).1 hx) hn
      · rw [tell hit hDt]
        show Pool.set x.live s.nextQ true q = true ↔ _
        by_cases e : q = s.nextQ
        · subst e
          rw [Pool.set_same]
          exact ⟨fun _ => ⟨r, link_ins.2 (.inr ⟨rfl, rfl⟩)⟩, fun _ => rfl⟩
        · rw [set_ne _ _ e, hl, tell hi hD]
          exact ⟨fun ⟨k, hk⟩ => ⟨k, link_ins.2 (.inl hk)⟩, fun ⟨k, hk⟩ => ⟨k, (link_ins.1 hk).resolve_right fun hh => e hh.2⟩⟩
    · simpa [Does] using same hD
    · simpa [Does] using same (desc_same hD (fun _ he => he) (fun _ he _ => he) (fun _ he _ _ => he) (fun _ he _ _ _ => he) (fun _ _ _ => rfl)
        (fun _ _ _ hq => hq))
    · refine (show ∃ x' : D α, x' = x ∧ _ from same (desc_same hD (fun _ he => he) (fun _ he _ => he) (fun e he o ho => ?_)
        (fun _ he _ _ _ => List.mem_append_left _ he) (fun _ _ _ => rfl) (fun _ _ _ hq => hq))).imp fun x' hx => ⟨by simpa [Does] using hx.1, hx.2⟩
      rcases List.mem_append.1 (show e ∈ s.rs ++ [_] from he) with he | he
      · exact he
      · rw [List.mem_singleton] at he; subst he; cases ho
  | share f k gid fid rcfg =>
    simp only [FilterConn.step] at hs
    by_cases hn : ∃ e ∈ s.rs, (e.f = f ∧ e.id = fid ∨ e.f = k ∧ e.id = gid) ∧ e.obj = none
    · obtain ⟨rfl, rfl⟩ := FilterConn.share_null hs hi hn
      simpa [Does] using same hD
    obtain ⟨t', b', h1, h2⟩ := FilterConn.share_ok hi f k gid fid rcfg (fun e he hc h => hn ⟨e, he, .inl hc, h⟩) (fun e he hc h => hn ⟨e, he, .inr hc, h⟩)
    rw [h1] at hs; cases hs
    rcases h2 with ⟨rfl, rfl, _⟩ | ⟨rfl, hfg, _, hno, _, o, ho, ⟨q, hq, hw⟩, hrs, hws, _, _, _, _, _, hq', hfs, hrest⟩
    · simpa [Does] using same hD
    · have hho : held s o := ⟨_, ho, rfl⟩
      have hk : k ∉ (s.rdr o).filters := by
        intro hk
        obtain ⟨e, e1, e2, e3⟩ := (hb o hho ⟨q, hq, hw⟩).1 k hk
        exact hp _ ho ⟨rfl, rfl⟩ o rfl e e1 e2 e3
      rw [if_neg hk] at hfs
      have hDt := desc_share (k := k) (id := gid) hi hD hho hq hw (fun e => by rw [hrs, List.mem_append, FilterConn.filter_mem_iff, List.mem_singleton])
        hno hws (hq'.trans hq) hfs (fun p hpo hh => hrest p hpo (by
          obtain ⟨e, e1, e2⟩ := hh
          rw [hrs] at e1
          rcases List.mem_append.1 e1 with e1 | e1
          · exact ⟨e, e1, e2⟩
          · rw [List.mem_singleton] at e1; subst e1; cases e2; exact absurd rfl hpo))
      have hins : q ∈ x.g.ins f := (hD.ins _ _).2 ⟨hw, _, ho, rfl, o, rfl, hq⟩
      have hlq : x.live q = true := (hl q).2 ((tell hi hD q).2 ⟨f, hins⟩)
      refine ⟨{ x with g := join x.g q k, s := { x.s with rd := Pool.set x.s.rd q ((x.s.rd q).addReader k).1 } }, ?_,
        (desc_iff hit).2 hDt, fun p => ?_⟩
      · simp only [Does, if_true]
        refine ⟨o, q, ho, hq, hins, by rw [hD.dst q o hw hho hq]; exact hk, ?_⟩
        simp only [D.step, hlq, if_true]
      · rw [tell hit hDt]
        show x.live p = true ↔ _
        rw [hl, tell hi hD]
        constructor
        · exact fun ⟨j, hj⟩ => ⟨j, join_ins.2 (.inl hj)⟩
        · rintro ⟨j, hj⟩
          rcases join_ins.1 hj with hj | ⟨_, rfl⟩
          · exact ⟨j, hj⟩
          · exact ⟨f, hins⟩
  | disconnectW f id dd =>
    obtain ⟨t', b', h1, _, h3, h4, h5, _⟩ := FilterConn.disconnectWriter_ok hi f id dd
    simp only [FilterConn.step] at hs
    rw [h1] at hs; cases hs
    by_cases hc : ∃ q, (⟨f, id, q⟩ : WE) ∈ s.ws ∧ Conn s q
    · obtain ⟨q, he, hc⟩ := hc
      have hDt := desc_writer hi hD he h3 h4 h5
      have hlq : x.live q = true := (hl q).2 hc
      refine ⟨{ g := unlink x.g q, s := { x.s with rd := Pool.set x.s.rd q { x.s.rd q with frame := none, filters := [], ready := true } }
                live := Pool.set x.live q false }, .inl ⟨q, he, ?_, ?_⟩, (desc_iff hit).2 hDt, fun p => ?_⟩
      · exact (hD.outs _ _).2 ⟨((conn_iff hi q).1 hc).2, _, he, rfl, rfl⟩
      · simp only [D.step, hlq, if_true]
      · rw [tell hit hDt]
        show Pool.set x.live q false p = true ↔ _
        by_cases e : p = q
        · subst e
          rw [Pool.set_same]
          exact ⟨fun hh => by (cases hh), fun ⟨k, hk⟩ => absurd rfl (unlink_ins.1 hk).2⟩
        · rw [set_ne _ _ e, hl, tell hi hD]
          exact ⟨fun ⟨k, hk⟩ => ⟨k, unlink_ins.2 ⟨hk, e⟩⟩, fun ⟨k, hk⟩ => ⟨k, (unlink_ins.1 hk).1⟩⟩
    · have hm : ∀ e, e ∈ t.ws ↔ e ∈ s.ws ∧ ¬ (e.f = f ∧ e.id = id) := by
        intro e; rw [h3]; simp only [List.mem_filter, decide_eq_true_eq]
      obtain ⟨x', e, r⟩ := same (desc_same hD (fun e he => ((hm e).1 he).1) (fun e he hr => (hm e).2 ⟨he, fun hk => hc ⟨e.q, by
          obtain ⟨ef, ei, eq⟩ := e
          obtain ⟨rfl, rfl⟩ := hk
          exact ⟨he, (conn_iff hi _).2 ⟨⟨_, he, rfl⟩, hr⟩⟩⟩⟩)
        (fun e he _ _ => by rw [h4] at he; exact he) (fun e he _ _ _ => by rw [h4]; exact he) (fun o _ _ => by rw [h5])
        (fun o q _ hq => by rw [h5] at hq; exact hq))
      exact ⟨x', .inr ⟨fun q he hh => hc ⟨q, he, hh⟩, e⟩, r⟩
  | disconnectR f id dd =>
    simp only [FilterConn.step] at hs
    cases hf : FilterConn.findR s f id with
    | none =>
      unfold FilterConn.disconnectReader at hs; rw [hf] at hs; cases hs
      obtain ⟨x', e, r⟩ := same hD
      exact ⟨x', .inr ⟨fun o q he => absurd ⟨rfl, rfl⟩ (FilterConn.findR_none hf _ he), e⟩, r⟩
    | some e =>
      obtain ⟨hem, hef, heid⟩ := FilterConn.findR_some hf
      obtain ⟨f', id', ob⟩ := e
      simp only at hef heid
      subst hef heid
      cases ob with
      | none => unfold FilterConn.disconnectReader at hs; rw [hf] at hs; cases hs
      | some o =>
        obtain ⟨t', h1, _, h3, h4, _, h6, h7, h8⟩ := FilterConn.disconnectReader_reg hi hg hem dd
        rw [h1] at hs; cases hs
        have hm : ∀ e, e ∈ t.rs ↔ e ∈ s.rs ∧ ¬ (e.f = f' ∧ e.id = id') := by
          intro e; rw [h3]; simp only [List.mem_filter, decide_eq_true_eq]
        have hqs : ∀ p, held t p → (t.rdr p).queue = (s.rdr p).queue := fun p ⟨e, a, c⟩ => h6 e a p c
        by_cases hfed : fed s o
        · obtain ⟨q, hq, hw⟩ := hfed
          obtain ⟨k1, k2, k3⟩ := desc_leave hi hg hb hD hem hq hw hm h4 hqs h7 h8
          have hins : q ∈ x.g.ins f' := (hD.ins _ _).2 ⟨hw, _, hem, rfl, o, rfl, hq⟩
          have hlq : x.live q = true := (hl q).2 ((tell hi hD q).2 ⟨f', hins⟩)
          by_cases hj : ∃ j ∈ x.g.dst q, j ≠ f'
          · have hDt := k2 hj
            refine ⟨{ x with g := unjoin x.g q f', s := { x.s with rd := Pool.set x.s.rd q ((x.s.rd q).disconnect f').1 } },
              .inl ⟨o, q, hem, hq, hins, k1, .inl ⟨hj, ?_⟩⟩, (desc_iff hit).2 hDt, fun p => ?_⟩
            · simp only [D.step, hlq, if_true]
            · rw [tell hit hDt]
              show x.live p = true ↔ _
              rw [hl, tell hi hD]
              constructor
              · rintro ⟨k, hk⟩
                by_cases e : p = q
                · subst e
                  obtain ⟨j, j1, j2⟩ := hj
                  rw [hD.dst p o hw ⟨_, hem, rfl⟩ hq] at j1
                  obtain ⟨e, e1, rfl, e2⟩ := (hb o ⟨_, hem, rfl⟩ ⟨p, hq, hw⟩).1 j j1
                  exact ⟨e.f, unjoin_ins.2 ⟨(hD.ins _ _).2 ⟨hw, e, e1, rfl, o, e2, hq⟩, fun hh => j2 hh.1⟩⟩
                · exact ⟨k, unjoin_ins.2 ⟨hk, fun hh => e hh.2⟩⟩
              · exact fun ⟨k, hk⟩ => ⟨k, (unjoin_ins.1 hk).1⟩
          · have hall : ∀ j ∈ x.g.dst q, j = f' := fun j a => Classical.byContradiction fun c => hj ⟨j, a, c⟩
            have hDt := k3 hall
            refine ⟨{ g := unlink x.g q, s := { x.s with rd := Pool.set x.s.rd q { x.s.rd q with frame := none, filters := [], ready := true } }
                      live := Pool.set x.live q false }, .inl ⟨o, q, hem, hq, hins, k1, .inr ⟨hall, ?_⟩⟩, (desc_iff hit).2 hDt, fun p => ?_⟩
            · simp only [D.step, hlq, if_true]
            · rw [tell hit hDt]
              show Pool.set x.live q false p = true ↔ _
              by_cases e : p = q
              · subst e
                rw [Pool.set_same]
                exact ⟨fun hh => by (cases hh), fun ⟨k, hk⟩ => absurd rfl (unlink_ins.1 hk).2⟩
              · rw [set_ne _ _ e, hl, tell hi hD]
                exact ⟨fun ⟨k, hk⟩ => ⟨k, unlink_ins.2 ⟨hk, e⟩⟩, fun ⟨k, hk⟩ => ⟨k, (unlink_ins.1 hk).1⟩⟩
        · obtain ⟨x', e, r⟩ := same (desc_same hD (fun e he => by rw [h4] at he; exact he) (fun e he _ => by rw [h4]; exact he)
            (fun e he _ _ => ((hm e).1 he).1) (fun e he p hep hfp => (hm e).2 ⟨he, fun hk => by
              have := hi.rUnique he hem hk
              subst this
              cases hep
              exact hfed hfp⟩) (fun p _ hfp => h7 p (by rintro rfl; exact hfed hfp)) (fun p q hh hq => by rw [← hqs p hh]; exact hq))
          refine ⟨x', .inr ⟨fun p q he hq hc => hfed ?_, e⟩, r⟩
          have := hi.rUnique he hem ⟨rfl, rfl⟩
          cases this
          exact ⟨q, hq, ((conn_iff hi q).1 hc).1⟩
  | roundW f =>
    obtain ⟨t', h1, _, h3, h4, h5, _⟩ := FilterConn.sweepW_ok hi f
    simp only [FilterConn.step] at hs
    rw [h1] at hs; cases hs
    exact same (desc_same hD (fun e he => ((h3 e).1 he).1) (fun e he hr => (h3 e).2 ⟨he, fun _ => hr⟩)
      (fun e he _ _ => by rw [h4] at he; exact he) (fun e he _ _ _ => by rw [h4]; exact he) (fun o _ _ => by rw [h5])
      (fun o q _ hq => by rw [h5] at hq; exact hq))
  | roundR f strict =>
    simp only [FilterConn.step] at hs
    cases h1 : FilterConn.sweepR s f strict with
    | ub => rw [h1] at hs; cases hs
    | hang => rw [h1] at hs; cases hs
    | ok u =>
      rw [h1] at hs; cases hs
      exact same (desc_sweepR _ h1 hi (fun e he => (List.mem_filter.1 he).1) (hi.rKey.filter _) hD)

theorem allowedRun_append {x : D α} (a b : List (Op α)) (ha : AllowedRun x a)
    (hb : ∀ y outs, runOps D.step x a = .ok (y, outs) → AllowedRun y b) : AllowedRun x (a ++ b) := by
  induction a generalizing x with
  | nil => exact hb x [] rfl
  | cons op a ih =>
    refine ⟨ha.1, fun x' o hs => ih (ha.2 x' o hs) fun y outs hy => hb y (o :: outs) ?_⟩
    simp only [runOps, hs, Outcome.bind_ok, hy]

/-- **C92.** Whatever network the calls have made (none given the same reader twice), before any filter runs, the
changes above make it too, so that all that is said of frames here holds from there on. -/
theorem called_network_is_reached {mr mw : Nat → Nat} {s : St} (h : Reach mr mw s) (periodic : Nat → Bool) (d : α) (time : Nat → Nat) :
    ∃ ops x outs, AllowedRun (D.init periodic d time) ops ∧ runOps D.step (D.init periodic d time) ops = .ok (x, outs) ∧
      Describes x.g s ∧ ∀ q, x.live q = true ↔ Conn s q := by
  suffices hh : ∃ ops x outs, AllowedRun (D.init periodic d time) ops ∧ runOps D.step (D.init periodic d time) ops = .ok (x, outs) ∧
      Describes x.g s ∧ (∀ q, x.live q = true ↔ Conn s q) ∧ (∀ w, x.s.pool.ph w = .idle) ∧ ∀ q, (x.s.rd q).ready = true by
    obtain ⟨ops, x, outs, h1, h2, h3, h4, _⟩ := hh
    exact ⟨ops, x, outs, h1, h2, h3, h4⟩
  induction h with
  | init =>
    have hn : ∀ q, ¬ Conn (St.init mr mw) q := by rintro q ⟨f, w, hc⟩; cases hc
    refine ⟨[], _, _, trivial, rfl, ⟨fun k q => ?_, fun k q => ?_, fun k => List.nodup_nil, fun q f w hc => ?_, fun q o hc => absurd hc (hn q),
      fun q _ => rfl⟩, fun q => ⟨fun hh => by (cases hh), fun hc => absurd hc (hn q)⟩, fun _ => rfl, fun _ => rfl⟩
    · exact ⟨fun hh => (by cases hh), fun hh => absurd hh.1 (hn q)⟩
    · exact ⟨fun hh => (by cases hh), fun hh => absurd hh.1 (hn q)⟩
    · cases hc
  | step hr hp hs ih =>
    rename_i s t op b
    obtain ⟨ops, x, outs, h1, h2, h3, h4, h5, h6⟩ := ih
    obtain ⟨x', k1, k2, k3⟩ := calls_are_changes hr hp hs h3 h4 3 (fun _ => d)
    have idle : ∀ k, Idle x k := fun k w hw => by rw [h5 w] at hw; cases hw
    have none : x' = x → ∃ ops x outs, AllowedRun (D.init periodic d time) ops ∧ runOps D.step (D.init periodic d time) ops = .ok (x, outs) ∧
        Describes x.g t ∧ (∀ q, x.live q = true ↔ Conn t q) ∧ (∀ w, x.s.pool.ph w = .idle) ∧ ∀ q, (x.s.rd q).ready = true := by
      rintro rfl
      exact ⟨ops, x', outs, h1, h2, k2, k3, h5, h6⟩
    have one : ∀ (a : Op α) (o : Out α), x.step a = .ok (x', o) → Allowed x a → (∀ w, x'.s.pool.ph w = .idle) → (∀ q, (x'.s.rd q).ready = true) →
        ∃ ops x outs, AllowedRun (D.init periodic d time) ops ∧ runOps D.step (D.init periodic d time) ops = .ok (x, outs) ∧
        Describes x.g t ∧ (∀ q, x.live q = true ↔ Conn t q) ∧ (∀ w, x.s.pool.ph w = .idle) ∧ ∀ q, (x.s.rd q).ready = true := by
      intro a o ha hal g1 g2
      refine ⟨ops ++ [a], x', outs ++ [o], allowedRun_append _ _ h1 fun y os hy => ?_, ?_, k2, k3, g1, g2⟩
      · rw [h2] at hy
        cases hy
        exact ⟨hal, fun _ _ _ => trivial⟩
      · rw [runOps_append, h2]
        simp only [Outcome.bind_ok, runOps, ha]
    have hset : ∀ {q : Nat} {r : SharedReader.Rd α}, r.ready = true → ∀ p, (Pool.set x.s.rd q r p).ready = true := by
      intro q r hr p
      by_cases e : p = q
      · subst e; rw [Pool.set_same]; exact hr
      · rw [set_ne _ _ e]; exact h6 p
    have cut : ∀ {q : Nat}, x.live q = true → x.step (.cut q) = .ok (x', .cut q) →
        ∃ ops x outs, AllowedRun (D.init periodic d time) ops ∧ runOps D.step (D.init periodic d time) ops = .ok (x, outs) ∧
        Describes x.g t ∧ (∀ q, x.live q = true ↔ Conn t q) ∧ (∀ w, x.s.pool.ph w = .idle) ∧ ∀ q, (x.s.rd q).ready = true := by
      intro q hl hc
      refine one _ _ hc ⟨hl, idle _, fun k _ => idle k⟩ ?_ ?_
      · simp only [D.step, hl, if_true] at hc; cases hc; exact h5
      · simp only [D.step, hl, if_true] at hc; cases hc; exact hset rfl
    obtain ⟨hi, _⟩ := FilterConn.reach_inv hr
    have liveIns : ∀ {q k : Nat}, q ∈ x.g.ins k → x.live q = true := fun hh => (h4 _).2 ((h3.ins _ _).1 hh).1
    cases op with
    | connect w r wid rid a =>
      cases b with
      | false => exact none (by simpa [Does] using k1)
      | true =>
        simp only [Does, if_true] at k1
        obtain ⟨q, q1, q2, q3⟩ := k1
        refine one _ _ q3 ⟨q2, q1, Nat.le_refl 3, idle _, idle _⟩ ?_ ?_
        · simp only [D.step] at q3; cases q3; exact h5
        · simp only [D.step] at q3; cases q3; exact hset rfl
    | share f k gid fid rcfg =>
      cases b with
      | false => exact none (by simpa [Does] using k1)
      | true =>
        simp only [Does, if_true] at k1
        obtain ⟨o, q, _, _, q1, q2, q3⟩ := k1
        have hl := liveIns q1
        refine one _ _ q3 ⟨hl, q2, idle _⟩ ?_ ?_
        · simp only [D.step, hl, if_true] at q3; cases q3; exact h5
        · simp only [D.step, hl, if_true] at q3; cases q3
          refine hset ?_
          unfold SharedReader.Rd.addReader
          split <;> exact h6 q
    | disconnectR f id dd =>
      rcases k1 with ⟨o, q, _, _, q1, q2, ⟨hj, q3⟩ | ⟨_, q3⟩⟩ | ⟨_, k1⟩
      · have hl := liveIns q1
        refine one _ _ q3 ⟨hl, q2, hj, idle _, fun hr => by rw [h6 q] at hr; cases hr⟩ ?_ ?_
        · simp only [D.step, hl, if_true] at q3; cases q3; exact h5
        · simp only [D.step, hl, if_true] at q3; cases q3
          refine hset ?_
          unfold SharedReader.Rd.disconnect
          split
          · exact h6 q
          · simp only
            split <;> exact h6 q
      · exact cut (liveIns q1) q3
      · exact none k1
    | disconnectW f id dd =>
      rcases k1 with ⟨q, _, q1, q3⟩ | ⟨_, k1⟩
      · exact cut ((h4 _).2 ((h3.outs _ _).1 q1).1) q3
      · exact none k1
    | roundW f => exact none k1
    | roundR f strict => exact none k1

/-- The network of `Wired.c3`, built with two connections and a share. -/
example : Reach (fun _ => 2) (fun _ => 1) Wired.c3 := Wired.c3_reach

/-- The hypotheses of `calls_are_changes`: sharing in a network of one connection. -/
example : ∃ x : D Nat, Describes x.g Wired.c1 ∧ (∀ q, x.live q = true ↔ Conn Wired.c1 q) ∧ Plain Wired.c1 (.share 1 2 4 1 true) ∧
    FilterConn.step Wired.c1 (.share 1 2 4 1 true) = .ok (Wired.c2, true) := by
  obtain ⟨_, x, _, _, _, h3, h4⟩ := called_network_is_reached Wired.c1_reach (fun k => k == 0) 0 (fun _ => 0)
  exact ⟨x, h3, h4, Wired.c2_plain, Wired.c2_step⟩

end Lms.Rewire
