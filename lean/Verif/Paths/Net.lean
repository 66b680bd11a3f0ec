import Verif.Paths.Rounds

/-! C96: the registry of paths together with the connections. -/

namespace Lms.Paths

open FilterConn

/-- src/Path.cpp:50-64 `hasFilter`. -/
def Path.has (p : Path) (f : Nat) : Bool := p.mid.contains f || f == p.org || f == p.dst

/-- The connections, and the registry of paths (`paths`, src/PipelineManager.hh:197) with what connecting each has
answered. -/
structure Net where
  conn : St
  paths : List (Int × Path × Bool)

/-- No connections and no paths (src/PipelineManager.cpp:43-47). -/
def Net.init (mr mw : Nat → Nat) : Net := ⟨St.init mr mw, []⟩

/-- What is asked of the pipeline, and rounds of its filters. -/
inductive Req where
  | create (e : Env) (id : Int) (p : Path)
  | remove (d : Nat → Bool) (id : Int)
  | roundW (f : Nat)
  | roundR (f : Nat) (strict : Bool)

/-- src/PipelineManager.cpp:257-271: the path's own filters are neither end and come once each. -/
def admitted (p : Path) : Bool := p.mid.all (fun m => m != p.org && m != p.dst) && decide p.mid.Nodup

/-- Does a path other than `id` have this filter (src/PipelineManager.cpp:452-462)? -/
def usedElsewhere (ps : List (Int × Path × Bool)) (id : Int) (f : Nat) : Bool := ps.any fun x => x.1 != id && x.2.1.has f

/-- Creating a path connects it (`createPathEvent`, src/PipelineManager.cpp:604-612, with `createPath` 231-285): it stays
in the registry whether this works or not.  Removing a path (375-389) deletes it with the ends no other path has.
All filters named are there. -/
def Net.step (n : Net) : Req → Outcome (Net × Bool)
  | .create e id p =>
    if n.paths.any (fun x => x.1 == id) then .ok (n, false)
    else if admitted p = false then .ok (n, false)
    else (connectPath e n.conn p).map fun x => (⟨x.1, n.paths ++ [(id, p, x.2)]⟩, x.2)
  | .remove d id =>
    match n.paths.find? fun x => x.1 == id with
    | none => .ok (n, true)
    | some (_, p, _) =>
      (deletePath d (!usedElsewhere n.paths id p.dst) (!usedElsewhere n.paths id p.org) n.conn p).map fun x =>
        if x.2 then (⟨x.1, n.paths.filter fun y => y.1 != id⟩, true) else (⟨x.1, n.paths⟩, false)
  | .roundW f => (sweepW n.conn f).map fun t => (⟨t, n.paths⟩, true)
  | .roundR f strict => (sweepR n.conn f strict).map fun t => (⟨t, n.paths⟩, true)

/-- Two paths get along: the own filters of each are not on the other, and they do not end in the same reader. -/
structure Apart (p q : Path) : Prop where
  left : ∀ m ∈ p.mid, ¬ (m ∈ q.mid ∨ m = q.org ∨ m = q.dst)
  right : ∀ m ∈ q.mid, ¬ (m ∈ p.mid ∨ m = p.org ∨ m = p.dst)
  ends : ¬ (p.dst = q.dst ∧ p.dstR = q.dstR)

/-- A new path gets along with those there are, and destinations let their readers go. -/
def Polite (n : Net) : Req → Prop
  | .create e _ p => Fit e p ∧ ∀ x ∈ n.paths, Apart p x.2.1
  | .remove d _ => ∀ f, d f = true
  | _ => True

/-- All that polite requests lead to. -/
inductive Runs (mr mw : Nat → Nat) : Net → Prop
  | init : Runs mr mw (Net.init mr mw)
  | step {n n' : Net} {r : Req} {b : Bool} : Runs mr mw n → Polite n r → n.step r = .ok (n', b) → Runs mr mw n'

variable {mr mw : Nat → Nat}

theorem Apart.symm {p q : Path} (h : Apart p q) : Apart q p := ⟨h.right, h.left, fun e => h.ends ⟨e.1.symm, e.2.symm⟩⟩

/-- A way stays when its connections do. -/
theorem leads_mono {s t : St} : ∀ (l : List Nat) {u dst : Nat} {w r : Int},
    (∀ a x b y, (a = u ∨ a ∈ l) → (b ∈ l ∨ b = dst ∧ y = r) → Joined s a x b y → Joined t a x b y) → Leads s u w l dst r → Leads t u w l dst r := by
  intro l
  induction l with
  | nil => intro u dst w r h hl; exact h _ _ _ _ (.inl rfl) (.inr ⟨rfl, rfl⟩) hl
  | cons m ms ih =>
    rintro u dst w r h ⟨⟨r', h1⟩, w', h2⟩
    refine ⟨⟨r', h _ _ _ _ (.inl rfl) (.inl List.mem_cons_self) h1⟩, w', ih (fun a x b y ha hb => h a x b y (.inr ?_) ?_) h2⟩
    · rcases ha with ha | ha
      · rw [ha]; exact List.mem_cons_self
      · exact List.mem_cons_of_mem _ ha
    · exact hb.imp (List.mem_cons_of_mem _) id

/-- `u` writes to `v` on the path. -/
def OnPath (p : Path) (u v : Nat) (r : Int) : Prop := Next (p.org :: p.mid ++ [p.dst]) u v ∧ (v = p.dst → r = p.dstR)

/-- What holds of a network that only had polite requests. -/
structure NI (mr mw : Nat → Nat) (n : Net) : Prop where
  hist : Hist mr mw n.conn
  ids : n.paths.Pairwise fun a b => a.1 ≠ b.1
  apart : n.paths.Pairwise fun a b => Apart a.2.1 b.2.1
  fit : ∀ x ∈ n.paths, x.2.1.mid.Nodup ∧ x.2.1.org ∉ x.2.1.mid ∧ x.2.1.dst ∉ x.2.1.mid
  leads : ∀ x ∈ n.paths, x.2.2 = true → Leads n.conn x.2.1.org x.2.1.orgW x.2.1.mid x.2.1.dst x.2.1.dstR
  only : ∀ u w v r, Joined n.conn u w v r → ∃ x ∈ n.paths, OnPath x.2.1 u v r

theorem has_iff {p : Path} {f : Nat} : p.has f = true ↔ f ∈ p.mid ∨ f = p.org ∨ f = p.dst := by
  simp [Path.has, or_assoc]

theorem apart_of {l : List (Int × Path × Bool)} (h1 : l.Pairwise fun a b => a.1 ≠ b.1) (h : l.Pairwise fun a b => Apart a.2.1 b.2.1) {x y : Int × Path × Bool} (hx : x ∈ l) (hy : y ∈ l)
    (hne : x.1 ≠ y.1) : Apart x.2.1 y.2.1 := by
  induction l with
  | nil => cases hx
  | cons z l ih =>
    obtain ⟨a1, a2⟩ := List.pairwise_cons.1 h1
    obtain ⟨b1, b2⟩ := List.pairwise_cons.1 h
    rcases List.mem_cons.1 hx with hx | hx <;> rcases List.mem_cons.1 hy with hy | hy
    · rw [hx, hy] at hne; exact absurd rfl hne
    · rw [hx]; exact b1 y hy
    · rw [hy]; exact (b1 x hx).symm
    · exact ih a2 b2 hx hy

theorem same_id {l : List (Int × Path × Bool)} (h1 : l.Pairwise fun a b => a.1 ≠ b.1) {x y : Int × Path × Bool} (hx : x ∈ l) (hy : y ∈ l) (h : x.1 = y.1) : x = y := by
  induction l with
  | nil => cases hx
  | cons z l ih =>
    obtain ⟨a1, a2⟩ := List.pairwise_cons.1 h1
    rcases List.mem_cons.1 hx with hx | hx <;> rcases List.mem_cons.1 hy with hy | hy
    · rw [hx, hy]
    · rw [hx] at h; exact absurd h (a1 y hy)
    · rw [hy] at h; exact absurd h.symm (a1 x hx)
    · exact ih a2 hx hy

/-- Who comes after another on a path is on it, past the origin, and who comes before is before the destination. -/
theorem onPath_ends {p : Path} {u v : Nat} {r : Int} (h : OnPath p u v r) : (u = p.org ∨ u ∈ p.mid) ∧ (v ∈ p.mid ∨ v = p.dst ∧ r = p.dstR) := by
  obtain ⟨⟨a, b, hab⟩, hr⟩ := h
  have hv : v ∈ p.mid ++ [p.dst] := by
    cases a with
    | nil =>
      simp only [List.nil_append, List.cons_append, List.cons.injEq] at hab
      rw [hab.2]
      exact List.mem_cons_self
    | cons z a =>
      simp only [List.cons_append, List.cons.injEq] at hab
      rw [hab.2]
      simp
  have hu : u ∈ p.org :: p.mid := by
    have : p.org :: p.mid = (a ++ u :: v :: b).dropLast := by
      rw [← hab, List.dropLast_concat]
    rw [this, List.dropLast_append_of_ne_nil (by simp)]
    simp
  refine ⟨List.mem_cons.1 hu, ?_⟩
  rcases List.mem_append.1 hv with h | h
  · exact .inl h
  · rw [List.mem_singleton] at h
    exact .inr ⟨h, hr h⟩

theorem net_step {n : Net} (h : NI mr mw n) {r : Req} (hp : Polite n r) : ∃ n' b, n.step r = .ok (n', b) ∧ NI mr mw n' := by
  obtain ⟨hh, i1, i2, i3, i4, i5⟩ := h
  cases r with
  | create e id p =>
    obtain ⟨hf, ha⟩ := hp
    unfold Net.step
    simp only
    by_cases c1 : n.paths.any (fun x => x.1 == id) = true
    · rw [if_pos c1]; exact ⟨n, false, rfl, hh, i1, i2, i3, i4, i5⟩
    rw [if_neg c1]
    by_cases c2 : admitted p = false
    · rw [if_pos c2]; exact ⟨n, false, rfl, hh, i1, i2, i3, i4, i5⟩
    rw [if_neg c2]
    obtain ⟨t, b, hc⟩ := (path_calls_are_safe hh).1 e p hf
    rw [hc]
    obtain ⟨k1, k2⟩ := connecting_changes_only_the_path hh hf hc
    refine ⟨_, _, rfl, .connect hh hf hc, ?_, ?_, ?_, ?_, ?_⟩
    · refine List.pairwise_append.2 ⟨i1, List.pairwise_singleton _ _, fun x hx y hy => ?_⟩
      rw [List.mem_singleton] at hy
      subst hy
      intro hxe
      exact c1 (List.any_eq_true.2 ⟨x, hx, by simpa using hxe⟩)
    · refine List.pairwise_append.2 ⟨i2, List.pairwise_singleton _ _, fun x hx y hy => ?_⟩
      rw [List.mem_singleton] at hy
      subst hy
      exact (ha x hx).symm
    · intro x hx
      rcases List.mem_append.1 hx with hx | hx
      · exact i3 x hx
      · rw [List.mem_singleton] at hx; subst hx; exact ⟨hf.once, hf.org, hf.dst⟩
    · intro x hx hb
      rcases List.mem_append.1 hx with hx | hx
      · exact leads_keeps k1 _ (i4 x hx hb)
      · rw [List.mem_singleton] at hx
        subst hx
        simp only at hb
        subst hb
        exact connected_path_leads hh hf hc
    · intro u w v r hj
      rcases k2 u w v r hj with hj | hj
      · obtain ⟨x, hx, hxo⟩ := i5 u w v r hj
        exact ⟨x, List.mem_append_left _ hx, hxo⟩
      · exact ⟨_, List.mem_append_right _ (List.mem_singleton.2 rfl), hj⟩
  | remove d id =>
    unfold Net.step
    simp only
    cases hfd : n.paths.find? fun x => x.1 == id with
    | none => exact ⟨n, true, rfl, hh, i1, i2, i3, i4, i5⟩
    | some z =>
      obtain ⟨id', p, up⟩ := z
      have hz := List.mem_of_find?_eq_some hfd
      have hid : id' = id := by simpa using List.find?_some hfd
      subst hid
      simp only
      obtain ⟨t, b, hc⟩ := (path_calls_are_safe hh).2 d (!usedElsewhere n.paths id' p.dst) (!usedElsewhere n.paths id' p.org) p
      rw [hc]
      simp only [Outcome.map_ok]
      cases b with
      | false =>
        have := (refused_deletion_cuts_the_end hh hc).1
        rw [hp p.dst] at this
        cases this
      | true =>
        obtain ⟨_, _, k⟩ := deleted_path_is_gone hh hc
        have hrest : ∀ x, x ∈ n.paths.filter (fun y => y.1 != id') ↔ x ∈ n.paths ∧ x.1 ≠ id' := fun x => by simp [List.mem_filter]
        have hsafe : ∀ x ∈ n.paths, x.1 ≠ id' → ∀ f, (f ∈ x.2.1.mid ∨ f = x.2.1.org ∨ f = x.2.1.dst) →
            ¬ Doomed p (!usedElsewhere n.paths id' p.dst) (!usedElsewhere n.paths id' p.org) f := by
          intro x hx hne f hfx hd
          have hap := apart_of i1 i2 hz hx (Ne.symm hne)
          have hu : ∀ g, g = f → usedElsewhere n.paths id' g = true := fun g hg => by
            refine List.any_eq_true.2 ⟨x, hx, ?_⟩
            simp only [Bool.and_eq_true, bne_iff_ne]
            exact ⟨hne, has_iff.2 (by rw [hg]; exact hfx)⟩
          rcases hd with hd | ⟨hd, he⟩ | ⟨hd, he⟩
          · exact hap.left f hd hfx
          · rw [hu _ he.symm] at hd; cases hd
          · rw [hu _ he.symm] at hd; cases hd
        refine ⟨_, _, rfl, .delete hh hc, i1.filter _, i2.filter _, fun x hx => i3 x ((hrest x).1 hx).1, ?_, ?_⟩
        · intro x hx hb
          obtain ⟨hx, hne⟩ := (hrest x).1 hx
          have hap := apart_of i1 i2 hz hx (Ne.symm hne)
          refine leads_mono _ (fun a y b' y' ha hb' hj => (k a y b' y').2 ⟨hj, hsafe x hx hne a ?_, hsafe x hx hne b' ?_, ?_⟩) (i4 x hx hb)
          · rcases ha with ha | ha
            · exact .inr (.inl ha)
            · exact .inl ha
          · rcases hb' with hb' | hb'
            · exact .inl hb'
            · exact .inr (.inr hb'.1)
          · rintro ⟨e1, e2⟩
            rcases hb' with hb' | ⟨f1, f2⟩
            · exact hap.right b' hb' (.inr (.inr e1))
            · exact hap.ends ⟨e1.symm.trans f1, e2.symm.trans f2⟩
        · intro u w v r hj
          obtain ⟨hj, g1, g2, g3⟩ := (k u w v r).1 hj
          obtain ⟨x, hx, hxo⟩ := i5 u w v r hj
          refine ⟨x, (hrest x).2 ⟨hx, fun he => ?_⟩, hxo⟩
          obtain rfl := same_id i1 hx hz he
          rcases (onPath_ends hxo).2 with hv | hv
          · exact g2 (.inl hv)
          · exact g3 hv
  | roundW f =>
    obtain ⟨t, h1, _⟩ := sweepW_ok (hist_good hh).inv f
    have k := rounds_change_nothing hh (.inl h1)
    refine ⟨⟨t, n.paths⟩, true, by simp only [Net.step, h1, Outcome.map_ok], .roundW hh h1, i1, i2, i3, fun x hx hb => ?_, fun u w v r hj => i5 u w v r ((k u w v r).1 hj)⟩
    exact leads_keeps (fun u w v r hj => (k u w v r).2 hj) _ (i4 x hx hb)
  | roundR f strict =>
    obtain ⟨t, h1, _⟩ := sweepR_ok (hist_good hh).inv f strict (fun _ e he _ => (hist_good hh).nn e he)
    have k := rounds_change_nothing hh (.inr ⟨strict, h1⟩)
    refine ⟨⟨t, n.paths⟩, true, by simp only [Net.step, h1, Outcome.map_ok], .roundR hh h1, i1, i2, i3, fun x hx hb => ?_, fun u w v r hj => i5 u w v r ((k u w v r).1 hj)⟩
    exact leads_keeps (fun u w v r hj => (k u w v r).2 hj) _ (i4 x hx hb)

theorem runs_ni {n : Net} (h : Runs mr mw n) : NI mr mw n := by
  induction h with
  | init => exact ⟨.init, .nil, .nil, fun x hx => (by cases hx), fun x hx => (by cases hx), fun u w v r ⟨q, o, j, _⟩ => (by cases j)⟩
  | step _ hp hs ih =>
    obtain ⟨n', b, h1, h2⟩ := net_step ih hp
    rw [h1] at hs
    cases hs
    exact h2

/-- **C96.** Every polite request comes to an end without anything undefined. -/
theorem requests_are_safe {n : Net} (h : Runs mr mw n) {r : Req} (hp : Polite n r) : ∃ n' b, n.step r = .ok (n', b) := by
  obtain ⟨n', b, h1, _⟩ := net_step (runs_ni h) hp
  exact ⟨n', b, h1⟩

/-- **C96.** A path whose creation succeeded leads from its origin to its destination as long as it is in the registry, whatever
paths come and go meanwhile. -/
theorem connected_paths_stay {n : Net} (h : Runs mr mw n) {id : Int} {p : Path} (hm : (id, p, true) ∈ n.paths) :
    Leads n.conn p.org p.orgW p.mid p.dst p.dstR := (runs_ni h).leads _ hm rfl

/-- **C96.** Whatever is joined is so on behalf of a path in the registry. -/
theorem no_stray_connections {n : Net} (h : Runs mr mw n) {u v : Nat} {w r : Int} (hj : Joined n.conn u w v r) :
    ∃ id p b, (id, p, b) ∈ n.paths ∧ Next (p.org :: p.mid ++ [p.dst]) u v ∧ (v = p.dst → r = p.dstR) := by
  obtain ⟨x, hx, hxo⟩ := (runs_ni h).only u w v r hj
  exact ⟨x.1, x.2.1, x.2.2, hx, hxo⟩

/-- **C96.** When the last path is gone nothing is joined. -/
theorem nothing_joined_without_paths {n : Net} (h : Runs mr mw n) (he : n.paths = []) (u : Nat) (w : Int) (v : Nat) (r : Int) : ¬ Joined n.conn u w v r := by
  intro hj
  obtain ⟨id, p, b, hm, _⟩ := no_stray_connections h hj
  rw [he] at hm
  cases hm

/-- **C96.** Removing a path takes it and no other out of the registry. -/
theorem removal_removes {n n' : Net} {d : Nat → Bool} {id : Int} (h : Runs mr mw n) (hp : Polite n (.remove d id)) {b : Bool} (hs : n.step (.remove d id) = .ok (n', b)) :
    b = true ∧ ∀ x, x ∈ n'.paths ↔ x ∈ n.paths ∧ x.1 ≠ id := by
  have hh := (runs_ni h).hist
  unfold Net.step at hs
  cases hfd : n.paths.find? fun x => x.1 == id with
  | none =>
    simp only [hfd] at hs
    cases hs
    refine ⟨rfl, fun x => ⟨fun hx => ⟨hx, fun he => ?_⟩, And.left⟩⟩
    have := List.find?_eq_none.1 hfd x hx
    simp [he] at this
  | some z =>
    obtain ⟨id', p, up⟩ := z
    simp only [hfd] at hs
    obtain ⟨t, c, hc⟩ := (path_calls_are_safe hh).2 d (!usedElsewhere n.paths id p.dst) (!usedElsewhere n.paths id p.org) p
    rw [hc] at hs
    simp only [Outcome.map_ok] at hs
    cases c with
    | false =>
      have := (refused_deletion_cuts_the_end hh hc).1
      rw [hp p.dst] at this
      cases this
    | true =>
      simp only [if_true] at hs
      cases hs
      exact ⟨rfl, fun x => by simp [List.mem_filter]⟩

end Lms.Paths
