import Verif.Sink.Model

/-!
# Invariant of the transmitter
-/

namespace Lms.Sink

/-- Reader `r` is there. -/
def alive (s : St) (r : Int) : Prop := ∃ st, (r, some st) ∈ s.readers

/-- The connection reports reader `r`. -/
def reports (s : St) (c : Conn) (r : Int) : Prop :=
  match c with
  | .rtp l _ => r ∈ l
  | .rtsp k => ∃ x, s.sess k = some x ∧ r ∈ x.listed

/-- The connection sends the data of reader `r`. -/
def sends (s : St) (c : Conn) (r : Int) : Prop :=
  match c with
  | .rtp _ u => r ∈ u
  | .rtsp k => ∃ x, s.sess k = some x ∧ r ∈ x.uses

structure Inv (s : St) : Prop where
  rKey : (s.readers.map Prod.fst).Nodup
  cKey : (s.conns.map Prod.fst).Nodup
  src : ∀ r, alive s r → ∃ st, (r, st) ∈ s.sources
  same : ∀ i c, (i, c) ∈ s.conns → ∀ r, sends s c r ↔ reports s c r
  there : ∀ i c, (i, c) ∈ s.conns → ∀ r, reports s c r → alive s r
  open' : ∀ i k, (i, Conn.rtsp k) ∈ s.conns → ∃ x, s.sess k = some x
  sInj : ∀ i j k, (i, Conn.rtsp k) ∈ s.conns → (j, Conn.rtsp k) ∈ s.conns → i = j
  own : ∀ k x, s.sess k = some x → ∃ i, (i, Conn.rtsp k) ∈ s.conns
  fresh : ∀ k, s.next ≤ k → s.sess k = none
  tab : ∀ n k, (n, k) ∈ s.table ↔ ∃ x, s.sess k = some x ∧ x.name = n
  names : ∀ j k x y, s.sess j = some x → s.sess k = some y → x.name = y.name → j = k
  noM1 : ∀ e ∈ s.readers, e.1 ≠ -1

theorem upd_same {β : Type} (f : Nat → β) (i : Nat) (v : β) : upd f i v i = v := if_pos rfl
theorem upd_other {β : Type} (f : Nat → β) {i j : Nat} (v : β) (h : j ≠ i) : upd f i v j = f j := if_neg h

theorem lookup_mem {α β : Type} [DecidableEq α] {l : List (α × β)} {k : α} {v : β} (h : l.lookup k = some v) : (k, v) ∈ l := by
  induction l with
  | nil => cases h
  | cons e l ih =>
    obtain ⟨a, b⟩ := e
    by_cases hk : k = a
    · subst hk; simp [List.lookup_cons] at h; subst h; exact List.mem_cons_self ..
    · rw [List.lookup_cons, beq_eq_false_iff_ne.2 hk] at h; exact List.mem_cons_of_mem _ (ih h)

theorem lookup_iff {α β : Type} [DecidableEq α] {l : List (α × β)} (hn : (l.map Prod.fst).Nodup) {k : α} {v : β} : l.lookup k = some v ↔ (k, v) ∈ l := by
  refine ⟨lookup_mem, ?_⟩
  induction l with
  | nil => intro h; cases h
  | cons e l ih =>
    intro h
    obtain ⟨a, b⟩ := e
    rw [List.map_cons, List.nodup_cons] at hn
    rcases List.mem_cons.1 h with h' | h'
    · cases h'; simp [List.lookup_cons]
    · have hk : k ≠ a := by rintro rfl; exact hn.1 (List.mem_map.2 ⟨_, h', rfl⟩)
      rw [List.lookup_cons, beq_eq_false_iff_ne.2 hk]; exact ih hn.2 h'

theorem lookup_none {α β : Type} [DecidableEq α] {l : List (α × β)} {k : α} (h : l.lookup k = none) : k ∉ l.map Prod.fst := by
  induction l with
  | nil => simp
  | cons e l ih =>
    obtain ⟨a, b⟩ := e
    by_cases hk : k = a
    · subst hk; simp [List.lookup_cons] at h
    · rw [List.lookup_cons, beq_eq_false_iff_ne.2 hk] at h
      simp only [List.map_cons, List.mem_cons, not_or]
      exact ⟨hk, ih h⟩

theorem key_unique {β : Type} {l : List (Int × β)} (hn : (l.map Prod.fst).Nodup) {k : Int} {u v : β} (h1 : (k, u) ∈ l) (h2 : (k, v) ∈ l) : u = v := by
  have a := (lookup_iff hn).2 h1
  rw [(lookup_iff hn).2 h2] at a
  cases a; rfl

theorem stream_iff {s : St} (hi : Inv s) {r : Int} {st : Stream} : stream s r = some st ↔ (r, some st) ∈ s.readers := by
  unfold stream
  rw [← lookup_iff hi.rKey]
  cases h : s.readers.lookup r with
  | none => simp
  | some x => cases x <;> simp

theorem stream_alive {s : St} (hi : Inv s) {r : Int} : stream s r ≠ none ↔ alive s r := by
  unfold alive
  cases h : stream s r with
  | none =>
    refine ⟨fun h => absurd rfl h, fun ⟨st, hs⟩ => ?_⟩
    rw [(stream_iff hi).2 hs] at h; cases h
  | some st => exact ⟨fun _ => ⟨st, (stream_iff hi).1 h⟩, fun _ h => by cases h⟩

theorem hasSource_iff {s : St} {r : Int} : hasSource s r = true ↔ ∃ st, (r, st) ∈ s.sources := by
  unfold hasSource
  simp only [List.any_eq_true, decide_eq_true_eq]
  constructor
  · rintro ⟨⟨a, b⟩, h, rfl⟩; exact ⟨b, h⟩
  · rintro ⟨st, h⟩; exact ⟨_, h, rfl⟩

theorem mem_put {β : Type} {l : List (Int × β)} {k : Int} {v : β} {e : Int × β} : e ∈ put l k v ↔ (e ∈ l ∧ e.1 ≠ k) ∨ e = (k, v) := by
  simp [put]

/-- The effect of stopping the connections that report a reader. -/
theorem stopUsers_ok (r : Int) : ∀ (l : List (Int × Conn)) (s : St), (∀ i k, (i, Conn.rtsp k) ∈ l → ∃ x, s.sess k = some x) →
    (l.Pairwise fun a b => ∀ k, a.2 = .rtsp k → b.2 ≠ .rtsp k) →
    ∃ t ids, stopUsers r s l = .ok (t, ids) ∧ t.conns = s.conns ∧ t.readers = s.readers ∧ t.sources = s.sources ∧ t.next = s.next ∧
      (∀ i, i ∈ ids ↔ ∃ c, (i, c) ∈ l ∧ reports s c r) ∧
      (∀ k, (∃ i, (i, Conn.rtsp k) ∈ l ∧ reports s (.rtsp k) r) → t.sess k = none) ∧
      (∀ k, ¬ (∃ i, (i, Conn.rtsp k) ∈ l ∧ reports s (.rtsp k) r) → t.sess k = s.sess k) ∧
      (∀ e, e ∈ t.table ↔ e ∈ s.table ∧ ¬ ∃ i k x, (i, Conn.rtsp k) ∈ l ∧ s.sess k = some x ∧ r ∈ x.listed ∧ e.1 = x.name) := by
  intro l
  induction l with
  | nil =>
    intro s _ _
    exact ⟨s, [], rfl, rfl, rfl, rfl, rfl, by simp, (by rintro k ⟨i, h, _⟩; cases h), fun _ _ => rfl, by
      intro e; constructor
      · intro h; exact ⟨h, by rintro ⟨i, k, x, h, _⟩; cases h⟩
      · exact And.left⟩
  | cons e l ih =>
    intro s ho hp
    obtain ⟨i, c⟩ := e
    obtain ⟨hx, hpl⟩ := List.pairwise_cons.1 hp
    have hol : ∀ i k, (i, Conn.rtsp k) ∈ l → ∃ x, s.sess k = some x := fun i k h => ho i k (List.mem_cons_of_mem _ h)
    unfold stopUsers
    cases c with
    | rtp ls u =>
      simp only [listed, Outcome.bind_ok, stopConn]
      obtain ⟨t, ids, h1, h2, h3, h4, h5, h6, h7, h8, h9⟩ := ih s hol hpl
      have e7 : ∀ k, (∃ j, (j, Conn.rtsp k) ∈ (i, Conn.rtp ls u) :: l ∧ reports s (.rtsp k) r) ↔ ∃ j, (j, Conn.rtsp k) ∈ l ∧ reports s (.rtsp k) r := by
        intro k; simp
      have e9 : ∀ e : String × Nat, (∃ j k x, (j, Conn.rtsp k) ∈ (i, Conn.rtp ls u) :: l ∧ s.sess k = some x ∧ r ∈ x.listed ∧ e.1 = x.name) ↔
          ∃ j k x, (j, Conn.rtsp k) ∈ l ∧ s.sess k = some x ∧ r ∈ x.listed ∧ e.1 = x.name := by intro e; simp
      by_cases hr : r ∈ ls
      · rw [if_pos hr, h1]
        refine ⟨t, i :: ids, rfl, h2, h3, h4, h5, ?_, fun k h => h7 k ((e7 k).1 h), fun k h => h8 k (fun h' => h ((e7 k).2 h')), fun e => by rw [h9, e9]⟩
        intro j
        rw [List.mem_cons, h6]
        constructor
        · rintro (rfl | ⟨c, hc, hr'⟩)
          · exact ⟨_, List.mem_cons_self .., hr⟩
          · exact ⟨c, List.mem_cons_of_mem _ hc, hr'⟩
        · rintro ⟨c, hc, hr'⟩
          rcases List.mem_cons.1 hc with h | h
          · cases h; exact .inl rfl
          · exact .inr ⟨c, h, hr'⟩
      · rw [if_neg hr, h1]
        refine ⟨t, ids, rfl, h2, h3, h4, h5, ?_, fun k h => h7 k ((e7 k).1 h), fun k h => h8 k (fun h' => h ((e7 k).2 h')), fun e => by rw [h9, e9]⟩
        intro j
        rw [h6]
        constructor
        · rintro ⟨c, hc, hr'⟩; exact ⟨c, List.mem_cons_of_mem _ hc, hr'⟩
        · rintro ⟨c, hc, hr'⟩
          rcases List.mem_cons.1 hc with h | h
          · cases h; exact absurd hr' hr
          · exact ⟨c, h, hr'⟩
    | rtsp k0 =>
      obtain ⟨x0, hx0⟩ := ho i k0 (List.mem_cons_self ..)
      have hk0 : ∀ j k, (j, Conn.rtsp k) ∈ l → k ≠ k0 := by
        rintro j k hj rfl; exact hx _ hj k rfl rfl
      simp only [listed, hx0, Outcome.bind_ok, stopConn, deleteSession]
      by_cases hr : r ∈ x0.listed
      · rw [if_pos hr]
        obtain ⟨s1, hs1⟩ : ∃ s1, s1 = { s with sess := upd s.sess k0 none, table := s.table.filter fun e => e.1 ≠ x0.name } := ⟨_, rfl⟩
        rw [← hs1]
        have hss : ∀ k, k ≠ k0 → s1.sess k = s.sess k := by intro k hk; rw [hs1]; exact upd_other _ _ hk
        have hs0 : s1.sess k0 = none := by rw [hs1]; exact upd_same _ _ _
        have htab : ∀ e, e ∈ s1.table ↔ e ∈ s.table ∧ e.1 ≠ x0.name := by
          intro e; rw [hs1]; simp only [List.mem_filter, decide_eq_true_eq]
        obtain ⟨t, ids, h1, h2, h3, h4, h5, h6, h7, h8, h9⟩ := ih s1 (fun j k hj => by rw [hss k (hk0 j k hj)]; exact hol j k hj) hpl
        have hrep : ∀ j c, (j, c) ∈ l → (reports s1 c r ↔ reports s c r) := by
          intro j c hc
          cases c with
          | rtp _ _ => exact Iff.rfl
          | rtsp k => simp only [reports, hss k (hk0 j k hc)]
        rw [h1]
        refine ⟨t, i :: ids, rfl, by rw [h2, hs1], by rw [h3, hs1], by rw [h4, hs1], by rw [h5, hs1], ?_, ?_, ?_, ?_⟩
        · intro j
          rw [List.mem_cons, h6]
          constructor
          · rintro (rfl | ⟨c, hc, hr'⟩)
            · exact ⟨_, List.mem_cons_self .., x0, hx0, hr⟩
            · exact ⟨c, List.mem_cons_of_mem _ hc, (hrep j c hc).1 hr'⟩
          · rintro ⟨c, hc, hr'⟩
            rcases List.mem_cons.1 hc with h | h
            · cases h; exact .inl rfl
            · exact .inr ⟨c, h, (hrep j c h).2 hr'⟩
        · rintro k ⟨j, hj, hr'⟩
          rcases List.mem_cons.1 hj with h | h
          · cases h
            rw [h8, hs0]
            rintro ⟨j', hj', _⟩; exact hk0 j' _ hj' rfl
          · exact h7 k ⟨j, h, (hrep j _ h).2 hr'⟩
        · intro k hk
          have hne : k ≠ k0 := by rintro rfl; exact hk ⟨i, List.mem_cons_self .., x0, hx0, hr⟩
          rw [h8 k, hss k hne]
          rintro ⟨j, hj, hr'⟩
          exact hk ⟨j, List.mem_cons_of_mem _ hj, (hrep j _ hj).1 hr'⟩
        · intro e
          rw [h9, htab]
          constructor
          · rintro ⟨⟨a, b⟩, c⟩
            refine ⟨a, ?_⟩
            rintro ⟨j, k, x, hj, hk, hl, hn⟩
            rcases List.mem_cons.1 hj with h | h
            · cases h
              rw [hx0] at hk; cases hk; exact b hn
            · exact c ⟨j, k, x, h, by rw [hss k (hk0 j k h)]; exact hk, hl, hn⟩
          · rintro ⟨a, b⟩
            refine ⟨⟨a, fun hn => b ⟨i, k0, x0, List.mem_cons_self .., hx0, hr, hn⟩⟩, ?_⟩
            rintro ⟨j, k, x, hj, hk, hl, hn⟩
            exact b ⟨j, k, x, List.mem_cons_of_mem _ hj, by rw [← hss k (hk0 j k hj)]; exact hk, hl, hn⟩
      · rw [if_neg hr]
        obtain ⟨t, ids, h1, h2, h3, h4, h5, h6, h7, h8, h9⟩ := ih s hol hpl
        have hnr : ¬ reports s (.rtsp k0) r := by rintro ⟨x, hx', hr'⟩; rw [hx0] at hx'; cases hx'; exact hr hr'
        rw [h1]
        refine ⟨t, ids, rfl, h2, h3, h4, h5, ?_, ?_, ?_, ?_⟩
        · intro j
          rw [h6]
          constructor
          · rintro ⟨c, hc, hr'⟩; exact ⟨c, List.mem_cons_of_mem _ hc, hr'⟩
          · rintro ⟨c, hc, hr'⟩
            rcases List.mem_cons.1 hc with h | h
            · cases h; exact absurd hr' hnr
            · exact ⟨c, h, hr'⟩
        · rintro k ⟨j, hj, hr'⟩
          rcases List.mem_cons.1 hj with h | h
          · cases h; exact absurd hr' hnr
          · exact h7 k ⟨j, h, hr'⟩
        · intro k hk
          exact h8 k fun ⟨j, hj, hr'⟩ => hk ⟨j, List.mem_cons_of_mem _ hj, hr'⟩
        · intro e
          rw [h9]
          refine and_congr_right fun _ => not_congr ?_
          constructor
          · rintro ⟨j, k, x, hj, hrest⟩; exact ⟨j, k, x, List.mem_cons_of_mem _ hj, hrest⟩
          · rintro ⟨j, k, x, hj, hk, hl, hn⟩
            rcases List.mem_cons.1 hj with h | h
            · cases h
              rw [hx0] at hk; cases hk; exact absurd hl hr
            · exact ⟨j, k, x, h, hk, hl, hn⟩

theorem Inv.pairwise {s : St} (hi : Inv s) : s.conns.Pairwise fun a b => ∀ k, a.2 = .rtsp k → b.2 ≠ .rtsp k := by
  have h := hi.cKey
  rw [List.Nodup, List.pairwise_map] at h
  refine h.imp_of_mem ?_
  intro a b ha hb hne k h1 h2
  obtain ⟨i, c⟩ := a
  obtain ⟨j, d⟩ := b
  simp only at h1 h2 hne
  subst h1 h2
  exact hne (hi.sInj i j k ha hb)

theorem inv_init : Inv St.init := by
  refine ⟨List.nodup_nil, List.nodup_nil, ?_, ?_, ?_, ?_, ?_, ?_, fun _ _ => rfl, ?_, ?_, ?_⟩
  · rintro r ⟨st, h⟩; cases h
  · intro i c h; cases h
  · intro i c h; cases h
  · intro i k h; cases h
  · intro i j k h; cases h
  · intro k x h; cases h
  · intro n k; exact ⟨fun h => (by cases h), fun ⟨x, h, _⟩ => (by cases h)⟩
  · intro j k x y h; cases h
  · intro e h; cases h

end Lms.Sink
