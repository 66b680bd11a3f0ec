import Verif.Sink.Lemmas

/-!
# Each request keeps the invariant
-/

namespace Lms.Sink

/-- What is expected of a caller: no reader -1, no deletion of a reader that was refused (`FilterConn`), no
second RTSP connection under the name of one that is there. -/
def Good (s : St) : Op → Prop
  | .addReader r _ => r ≠ -1
  | .delReader r => (r, none) ∉ s.readers
  | .addRTSP _ _ _ n => ∀ i k x, (i, Conn.rtsp k) ∈ s.conns → s.sess k = some x → x.name ≠ n
  | _ => True

theorem reports_congr {s t : St} (h : t.sess = s.sess) (c : Conn) (r : Int) : reports t c r ↔ reports s c r := by
  cases c <;> simp [reports, h]

theorem sends_congr {s t : St} (h : t.sess = s.sess) (c : Conn) (r : Int) : sends t c r ↔ sends s c r := by
  cases c <;> simp [sends, h]

/-- Only readers and sources change, and no reader goes. -/
theorem inv_readers {s t : St} (hi : Inv s) (h1 : t.conns = s.conns) (h2 : t.sess = s.sess) (h3 : t.next = s.next) (h4 : t.table = s.table)
    (k1 : (t.readers.map Prod.fst).Nodup) (k2 : ∀ r, alive t r → ∃ st, (r, st) ∈ t.sources) (k3 : ∀ r, alive s r → alive t r)
    (k4 : ∀ e ∈ t.readers, e.1 ≠ -1) : Inv t := by
  refine ⟨k1, by rw [h1]; exact hi.cKey, k2, ?_, ?_, ?_, ?_, ?_, ?_, ?_, ?_, k4⟩
  · intro i c hc r; rw [reports_congr h2, sends_congr h2]; rw [h1] at hc; exact hi.same i c hc r
  · intro i c hc r hr; rw [reports_congr h2] at hr; rw [h1] at hc; exact k3 r (hi.there i c hc r hr)
  · rw [h1, h2]; exact hi.open'
  · rw [h1]; exact hi.sInj
  · rw [h1, h2]; exact hi.own
  · rw [h2, h3]; exact hi.fresh
  · rw [h2, h4]; exact hi.tab
  · rw [h2]; exact hi.names

theorem mem_keys {β : Type} {l : List (Int × β)} {k : Int} : k ∈ l.map Prod.fst ↔ ∃ v, (k, v) ∈ l := by
  rw [List.mem_map]
  constructor
  · rintro ⟨⟨a, b⟩, h, rfl⟩; exact ⟨b, h⟩
  · rintro ⟨v, h⟩; exact ⟨_, h, rfl⟩

theorem config_eq (s : St) (r : Int) (st : Stream) : (config s r st).1.conns = s.conns ∧ (config s r st).1.sess = s.sess ∧
    (config s r st).1.next = s.next ∧ (config s r st).1.table = s.table ∧ (config s r st).1.readers = s.readers := by
  unfold config; split
  · split <;> exact ⟨rfl, rfl, rfl, rfl, rfl⟩
  · exact ⟨rfl, rfl, rfl, rfl, rfl⟩

/-- Sources after a new reader: none goes, and an accepted reader has one. -/
theorem config_src (s : St) (r : Int) (st : Stream) : (∀ q st', (q, st') ∈ s.sources → ∃ st'', (q, st'') ∈ (config s r st).1.sources) ∧
    ((config s r st).2 = true → ∃ st', (r, st') ∈ (config s r st).1.sources) := by
  unfold config; split
  · split
    · rename_i h; exact ⟨fun q st' h => ⟨st', h⟩, fun _ => mem_keys.1 h⟩
    · exact ⟨fun q st' h => ⟨st', h⟩, fun h => by cases h⟩
  · refine ⟨fun q st' h => ?_, fun _ => ⟨st, mem_put.2 (.inr rfl)⟩⟩
    by_cases hq : q = r
    · subst hq; exact ⟨st, mem_put.2 (.inr rfl)⟩
    · exact ⟨st', mem_put.2 (.inl ⟨h, hq⟩)⟩

theorem inv_addReader {s : St} (hi : Inv s) {r : Int} (st : Stream) (hr : r ≠ -1) : Inv (addReader s r st).1 := by
  unfold addReader
  by_cases hm : r ∈ s.readers.map Prod.fst
  · rw [if_pos hm]; exact hi
  · rw [if_neg hm]
    obtain ⟨e1, e2, e3, e4, e5⟩ := config_eq s r st
    obtain ⟨g1, g2⟩ := config_src s r st
    refine inv_readers hi e1 e2 e3 e4 ?_ ?_ ?_ ?_
    · simp only [e5, List.map_append, List.map_cons, List.map_nil]
      exact List.nodup_append.2 ⟨hi.rKey, (by simp), by
        intro a ha b hb hab; cases List.mem_singleton.1 hb; subst hab; exact hm ha⟩
    · rintro q ⟨st', h⟩
      simp only [e5, List.mem_append, List.mem_singleton] at h
      rcases h with h | h
      · obtain ⟨x, hx⟩ := hi.src q ⟨st', h⟩
        exact g1 q x hx
      · injection h with h1 h2
        subst h1
        by_cases hc : (config s q st).2 = true
        · exact g2 hc
        · rw [if_neg hc] at h2; cases h2
    · rintro q ⟨st', h⟩
      exact ⟨st', by simp only [e5]; exact List.mem_append_left _ h⟩
    · intro e he
      simp only [e5, List.mem_append, List.mem_singleton] at he
      rcases he with he | he
      · exact hi.noM1 e he
      · subst he; exact hr

/-- A new RTP connection. -/
theorem inv_rtp {s : St} (hi : Inv s) {id : Int} {l u : List Int} (hid : id ∉ s.conns.map Prod.fst) (hlu : ∀ r, r ∈ u ↔ r ∈ l)
    (hl : ∀ r ∈ l, alive s r) : Inv { s with conns := s.conns ++ [(id, .rtp l u)] } := by
  have mem : ∀ e : Int × Conn, e ∈ s.conns ++ [(id, Conn.rtp l u)] ↔ e ∈ s.conns ∨ e = (id, Conn.rtp l u) := by intro e; simp
  have memk : ∀ i k, (i, Conn.rtsp k) ∈ s.conns ++ [(id, Conn.rtp l u)] ↔ (i, Conn.rtsp k) ∈ s.conns := by intro i k; simp
  refine ⟨hi.rKey, ?_, hi.src, ?_, ?_, ?_, ?_, ?_, hi.fresh, hi.tab, hi.names, hi.noM1⟩
  · simp only [List.map_append, List.map_cons, List.map_nil]
    exact List.nodup_append.2 ⟨hi.cKey, (by simp), by
      intro a ha b hb hab; cases List.mem_singleton.1 hb; subst hab; exact hid ha⟩
  · intro i c hc r
    rcases (mem _).1 hc with h | h
    · exact hi.same i c h r
    · injection h with h1 h2; subst h2; exact hlu r
  · intro i c hc r hr
    rcases (mem _).1 hc with h | h
    · exact hi.there i c h r hr
    · injection h with h1 h2; subst h2; exact hl r hr
  · intro i k h; exact hi.open' i k ((memk i k).1 h)
  · intro i j k h h'; exact hi.sInj i j k ((memk i k).1 h) ((memk j k).1 h')
  · intro k x h; obtain ⟨i, hk⟩ := hi.own k x h; exact ⟨i, (memk i k).2 hk⟩

/-- Connections go with their sessions. -/
theorem inv_drop {s t : St} (hi : Inv s) (ids : List Int) (hc : t.conns = s.conns.filter fun e => e.1 ∉ ids)
    (hd : ∀ i k, (i, Conn.rtsp k) ∈ s.conns → i ∈ ids → t.sess k = none) (hk : ∀ i k, (i, Conn.rtsp k) ∈ s.conns → i ∉ ids → t.sess k = s.sess k)
    (hn : ∀ k, s.sess k = none → t.sess k = none) (hx : t.next = s.next) (ht : ∀ n k, (n, k) ∈ t.table ↔ (n, k) ∈ s.table ∧ t.sess k ≠ none)
    (k1 : (t.readers.map Prod.fst).Nodup) (k2 : ∀ r, alive t r → ∃ st, (r, st) ∈ t.sources)
    (k3 : ∀ i c, (i, c) ∈ t.conns → ∀ r, reports s c r → alive t r) (k4 : ∀ e ∈ t.readers, e.1 ≠ -1) : Inv t := by
  have mem : ∀ e : Int × Conn, e ∈ t.conns ↔ e ∈ s.conns ∧ e.1 ∉ ids := by intro e; rw [hc]; simp only [List.mem_filter, decide_eq_true_eq]
  have hs : ∀ k x, t.sess k = some x → s.sess k = some x := by
    intro k x h
    cases hsk : s.sess k with
    | none => rw [hn k hsk] at h; cases h
    | some y =>
      obtain ⟨i, hi'⟩ := hi.own k y hsk
      by_cases hid : i ∈ ids
      · rw [hd i k hi' hid] at h; cases h
      · rw [hk i k hi' hid, hsk] at h; exact h
  have rep : ∀ i c, (i, c) ∈ t.conns → ∀ r, (reports t c r ↔ reports s c r) ∧ (sends t c r ↔ sends s c r) := by
    intro i c h r
    cases c with
    | rtp _ _ => exact ⟨Iff.rfl, Iff.rfl⟩
    | rtsp k =>
      have := hk i k ((mem _).1 h).1 ((mem _).1 h).2
      simp only [reports, sends, this, true_and]
  refine ⟨k1, ?_, k2, ?_, ?_, ?_, ?_, ?_, ?_, ?_, ?_, k4⟩
  · rw [hc]; exact hi.cKey.sublist (List.filter_sublist.map _)
  · intro i c h r; rw [(rep i c h r).1, (rep i c h r).2]; exact hi.same i c ((mem _).1 h).1 r
  · intro i c h r hr; exact k3 i c h r ((rep i c h r).1.1 hr)
  · intro i k h
    obtain ⟨x, hx'⟩ := hi.open' i k ((mem _).1 h).1
    exact ⟨x, by rw [hk i k ((mem _).1 h).1 ((mem _).1 h).2]; exact hx'⟩
  · intro i j k h h'; exact hi.sInj i j k ((mem _).1 h).1 ((mem _).1 h').1
  · intro k x h
    obtain ⟨i, h'⟩ := hi.own k x (hs k x h)
    refine ⟨i, (mem _).2 ⟨h', fun hid => ?_⟩⟩
    rw [hd i k h' hid] at h; cases h
  · intro k h; exact hn k (hi.fresh k (hx ▸ h))
  · intro n k
    rw [ht, hi.tab]
    constructor
    · rintro ⟨⟨x, h1, h2⟩, h3⟩
      cases h : t.sess k with
      | none => exact absurd h h3
      | some y => rw [hs k y h] at h1; cases h1; exact ⟨_, rfl, h2⟩
    · rintro ⟨x, h1, h2⟩; exact ⟨⟨x, hs k x h1, h2⟩, by rw [h1]; exact Option.some_ne_none x⟩
  · intro j k x y h1 h2 h; exact hi.names j k x y (hs j x h1) (hs k y h2) h

/-- Removing a connection. -/
theorem removeConn_ok {s : St} (hi : Inv s) (id : Int) : ∃ t b, removeConn s id = .ok (t, b) ∧ Inv t ∧
    t.readers = s.readers ∧ t.sources = s.sources ∧ t.conns = s.conns.filter (fun e => e.1 ≠ id) ∧ (b = true ↔ id ∈ s.conns.map Prod.fst) ∧
    (∀ i k, (i, Conn.rtsp k) ∈ t.conns → t.sess k = s.sess k) := by
  unfold removeConn
  cases hl : s.conns.lookup id with
  | none =>
    have := lookup_none hl
    refine ⟨s, false, rfl, hi, rfl, rfl, ?_, ⟨fun h => (by cases h), fun h => absurd h this⟩, fun _ _ _ => rfl⟩
    refine (List.filter_eq_self.2 fun x hx => decide_eq_true ?_).symm
    rintro rfl
    exact this (List.mem_map.2 ⟨x, hx, rfl⟩)
  | some c =>
    have hm := lookup_mem hl
    have hkey : id ∈ s.conns.map Prod.fst := List.mem_map.2 ⟨_, hm, rfl⟩
    have hal : ∀ (t : St), t.readers = s.readers → t.conns = s.conns.filter (fun e => e.1 ≠ id) → ∀ i c, (i, c) ∈ t.conns → ∀ r, reports s c r → alive t r := by
      intro t ht hc i c h r hr
      rw [hc] at h
      have := hi.there i c (List.mem_filter.1 h).1 r hr
      unfold alive at this ⊢; rw [ht]; exact this
    have flt : s.conns.filter (fun e => decide (e.1 ≠ id)) = s.conns.filter (fun e => decide (e.1 ∉ [id])) := by
      congr 1; funext e; simp
    cases c with
    | rtp l u =>
      refine ⟨_, true, rfl, ?_, rfl, rfl, rfl, by simp [hkey], fun _ _ _ => rfl⟩
      refine inv_drop hi [id] flt ?_ (fun _ _ _ _ => rfl) (fun _ h => h) rfl ?_ hi.rKey hi.src (hal _ rfl rfl) hi.noM1
      · intro i k h hid
        cases List.mem_singleton.1 hid
        have := key_unique hi.cKey hm h
        cases this
      · intro n k
        refine ⟨fun h => ⟨h, ?_⟩, And.left⟩
        obtain ⟨x, hx, _⟩ := (hi.tab n k).1 h
        show s.sess k ≠ none
        rw [hx]; exact Option.some_ne_none x
    | rtsp k0 =>
      obtain ⟨x0, hx0⟩ := hi.open' id k0 hm
      simp only [stopConn, deleteSession, hx0, Outcome.map_ok]
      have hne : ∀ i k, (i, Conn.rtsp k) ∈ s.conns → i ≠ id → k ≠ k0 := by
        rintro i k h hid rfl; exact hid (hi.sInj i id k h hm)
      refine ⟨_, true, rfl, ?_, rfl, rfl, rfl, by simp [hkey], ?_⟩
      · refine inv_drop hi [id] flt ?_ ?_ ?_ rfl ?_ hi.rKey hi.src (hal _ rfl rfl) hi.noM1
        · intro i k h hid
          cases List.mem_singleton.1 hid
          have := key_unique hi.cKey hm h
          injection this with this
          subst this
          exact upd_same _ _ _
        · intro i k h hid
          exact upd_other _ _ (hne i k h (fun h => hid (List.mem_singleton.2 h)))
        · intro k h
          by_cases hk : k = k0
          · subst hk; exact upd_same _ _ _
          · exact (upd_other _ _ hk).trans h
        · intro n k
          simp only [List.mem_filter, decide_eq_true_eq]
          refine and_congr_right fun h => ?_
          obtain ⟨x, hx, hxn⟩ := (hi.tab n k).1 h
          by_cases hk : k = k0
          · subst hk
            rw [upd_same]
            rw [hx0] at hx; cases hx
            exact ⟨fun h => absurd hxn.symm h, fun h => absurd rfl h⟩
          · rw [upd_other _ _ hk, hx]
            refine ⟨fun _ => Option.some_ne_none x, fun _ hn => hk (hi.names k k0 x x0 hx hx0 (hxn.trans hn))⟩
      · intro i k h
        have h := List.mem_filter.1 h
        exact upd_other _ _ (hne i k h.1 (of_decide_eq_true h.2))

/-- Deleting a reader. -/
theorem delReader_ok {s : St} (hi : Inv s) (r : Int) (hg : (r, none) ∉ s.readers) : ∃ t b, delReader s r = .ok (t, b) ∧ Inv t ∧
    t.readers = s.readers.filter (fun e => e.1 ≠ r) ∧
    (∀ i c, (i, c) ∈ t.conns ↔ (i, c) ∈ s.conns ∧ ¬ (alive s r ∧ reports s c r)) ∧
    (∀ i k, (i, Conn.rtsp k) ∈ t.conns → t.sess k = s.sess k) ∧
    (b = true ↔ alive s r ∧ ∃ i c, (i, c) ∈ s.conns ∧ reports s c r) ∧
    (∀ e, e ∈ t.sources ↔ e ∈ s.sources ∧ ¬ (b = true ∧ e.1 = r)) := by
  unfold delReader
  cases hl : s.readers.lookup r with
  | none =>
    have hno := lookup_none hl
    have hna : ¬ alive s r := by rintro ⟨st, h⟩; exact hno (List.mem_map.2 ⟨_, h, rfl⟩)
    refine ⟨s, false, rfl, hi, ?_, ?_, fun _ _ _ => rfl, ?_, ?_⟩
    · refine (List.filter_eq_self.2 fun x hx => decide_eq_true ?_).symm
      rintro rfl
      exact hno (List.mem_map.2 ⟨x, hx, rfl⟩)
    · intro i c; exact ⟨fun h => ⟨h, fun h => hna h.1⟩, And.left⟩
    · exact ⟨fun h => (by cases h), fun h => absurd h.1 hna⟩
    · intro e; exact ⟨fun h => ⟨h, fun h => (by cases h.1)⟩, And.left⟩
  | some o =>
    cases o with
    | none => exact absurd (lookup_mem hl) hg
    | some st =>
      have hm := lookup_mem hl
      have hal : alive s r := ⟨st, hm⟩
      obtain ⟨s1, hs1⟩ : ∃ s1, s1 = { s with readers := s.readers.filter fun e => e.1 ≠ r } := ⟨_, rfl⟩
      obtain ⟨t, ids, h1, h2, h3, h4, h5, h6, h7, h8, h9⟩ := stopUsers_ok r s1.conns s1 (by rw [hs1]; exact hi.open') (by rw [hs1]; exact hi.pairwise)
      have c1 : s1.conns = s.conns := by rw [hs1]
      have c2 : s1.sess = s.sess := by rw [hs1]
      have c3 : s1.table = s.table := by rw [hs1]
      have c4 : s1.sources = s.sources := by rw [hs1]
      have c5 : s1.next = s.next := by rw [hs1]
      have c6 : s1.readers = s.readers.filter fun e => e.1 ≠ r := by rw [hs1]
      simp only
      rw [← hs1, readerDelete, removeByReader, h1]
      simp only [Outcome.map_ok]
      have hrep : ∀ c, reports s1 c r ↔ reports s c r := fun c => reports_congr c2 c r
      have hids : ∀ i, i ∈ ids ↔ ∃ c, (i, c) ∈ s.conns ∧ reports s c r := by
        intro i; rw [h6, c1]
        exact exists_congr fun c => and_congr_right fun _ => hrep c
      have hids' : ∀ i c, (i, c) ∈ s.conns → (i ∈ ids ↔ reports s c r) := by
        intro i c hc
        rw [hids]
        constructor
        · rintro ⟨c', hc', h⟩; cases key_unique hi.cKey hc hc'; exact h
        · intro h; exact ⟨c, hc, h⟩
      have hsrc : hasSource { t with conns := t.conns.filter fun e => e.1 ∉ ids } r = true := by
        rw [hasSource_iff]
        show ∃ st, (r, st) ∈ t.sources
        rw [h4, c4]; exact hi.src r hal
      have hsess : ∀ k, t.sess k = none ∨ t.sess k = s.sess k := by
        intro k
        by_cases hk : ∃ i, (i, Conn.rtsp k) ∈ s1.conns ∧ reports s1 (.rtsp k) r
        · exact .inl (h7 k hk)
        · exact .inr (by rw [h8 k hk, c2])
      have key : ∀ u : St, u.conns = (t.conns.filter fun e => e.1 ∉ ids) → u.readers = t.readers → u.sess = t.sess → u.next = t.next → u.table = t.table →
          (∀ q st', (q, st') ∈ t.sources → q ≠ r → (q, st') ∈ u.sources) → Inv u := by
        intro u u1 u2 u3 u4 u5 u6
        have hcon : ∀ i c, (i, c) ∈ u.conns → (i, c) ∈ s.conns ∧ i ∉ ids := by
          intro i c h
          rw [u1] at h
          simp only [List.mem_filter, decide_eq_true_eq] at h
          rw [h2, c1] at h
          exact h
        have hrd : ∀ e, e ∈ u.readers ↔ e ∈ s.readers ∧ e.1 ≠ r := by
          intro e; rw [u2, h3, c6]; simp only [List.mem_filter, decide_eq_true_eq]
        refine inv_drop hi ids (by rw [u1, h2, c1]) ?_ ?_ ?_ (by rw [u4, h5, c5]) ?_ ?_ ?_ ?_ ?_
        · intro i k hik hid
          rw [u3]
          exact h7 k ⟨i, by rw [c1]; exact hik, (hrep _).2 ((hids' i _ hik).1 hid)⟩
        · intro i k hik hid
          rw [u3, h8 k, c2]
          rintro ⟨j, hj, hr⟩
          rw [c1] at hj
          cases hi.sInj i j k hik hj
          exact hid ((hids' i _ hik).2 ((hrep _).1 hr))
        · intro k h
          rw [u3]
          rcases hsess k with h' | h'
          · exact h'
          · rw [h']; exact h
        · intro n k
          rw [u5, u3, h9, c3]
          refine and_congr_right fun hin => ?_
          obtain ⟨x, hx, hxn⟩ := (hi.tab n k).1 hin
          constructor
          · intro h hno
            by_cases hk : ∃ i, (i, Conn.rtsp k) ∈ s1.conns ∧ reports s1 (.rtsp k) r
            · obtain ⟨i, hik, x', hx', hr⟩ := hk
              rw [c2, hx] at hx'; cases hx'
              exact h ⟨i, k, x, hik, by rw [c2]; exact hx, hr, hxn.symm⟩
            · rw [h8 k hk, c2, hx] at hno; cases hno
          · rintro h ⟨i, k', x', hik, hx', hr, hnn⟩
            rw [c2] at hx'
            cases hi.names k k' x x' hx hx' (hxn.trans hnn)
            exact h (h7 k ⟨i, hik, x', by rw [c2]; exact hx', hr⟩)
        · rw [u2, h3, c6]; exact hi.rKey.sublist (List.filter_sublist.map _)
        · rintro q ⟨st', h⟩
          obtain ⟨a, b⟩ := (hrd _).1 h
          obtain ⟨st'', h'⟩ := hi.src q ⟨st', a⟩
          exact ⟨st'', u6 q st'' (by rw [h4, c4]; exact h') b⟩
        · intro i c hc q hq
          obtain ⟨a, b⟩ := hcon i c hc
          obtain ⟨st', h⟩ := hi.there i c a q hq
          refine ⟨st', (hrd _).2 ⟨h, ?_⟩⟩
          rintro rfl
          exact b ((hids' i c a).2 hq)
        · intro e he; exact hi.noM1 e ((hrd e).1 he).1
      have hconn : ∀ i c, (i, c) ∈ (t.conns.filter fun e => e.1 ∉ ids) ↔ (i, c) ∈ s.conns ∧ ¬ (alive s r ∧ reports s c r) := by
        intro i c
        simp only [List.mem_filter, decide_eq_true_eq]
        rw [h2, c1]
        refine and_congr_right fun h => not_congr ?_
        rw [hids' i c h]
        exact ⟨fun h => ⟨hal, h⟩, And.right⟩
      have hkeep : ∀ i k, (i, Conn.rtsp k) ∈ (t.conns.filter fun e => e.1 ∉ ids) → t.sess k = s.sess k := by
        intro i k h
        obtain ⟨a, b⟩ := (hconn i _).1 h
        rw [h8 k, c2]
        rintro ⟨j, hj, hr⟩
        rw [c1] at hj
        exact b ⟨hal, (hrep _).1 hr⟩
      have hne : ids ≠ [] ↔ alive s r ∧ ∃ i c, (i, c) ∈ s.conns ∧ reports s c r := by
        constructor
        · intro h
          obtain ⟨i, hi'⟩ := List.exists_mem_of_ne_nil _ h
          exact ⟨hal, i, (hids i).1 hi'⟩
        · rintro ⟨_, i, h⟩ rfl
          have := (hids i).2 h
          cases this
      by_cases hb : ids = []
      · have : ¬ ((decide (ids ≠ []) = true) ∧ hasSource { t with conns := t.conns.filter fun e => e.1 ∉ ids } r = true) := by
          rintro ⟨a, _⟩; exact (of_decide_eq_true a) hb
        rw [if_neg this]
        refine ⟨_, false, rfl, key _ rfl rfl rfl rfl rfl (fun q st' h _ => h), by rw [h3, c6], hconn, hkeep, ?_, ?_⟩
        · rw [← hne]; exact ⟨fun h => (by cases h), fun h => absurd hb h⟩
        · intro e; show e ∈ t.sources ↔ _
          rw [h4, c4]; exact ⟨fun h => ⟨h, fun h => (by cases h.1)⟩, And.left⟩
      · rw [if_pos ⟨decide_eq_true hb, hsrc⟩]
        refine ⟨_, true, rfl, key _ rfl rfl rfl rfl rfl ?_, by rw [h3, c6], hconn, hkeep, ?_, ?_⟩
        · intro q st' h hq
          simp only [List.mem_filter, decide_eq_true_eq]; exact ⟨h, hq⟩
        · rw [← hne]; exact ⟨fun _ => hb, fun _ => rfl⟩
        · intro e
          simp only [List.mem_filter, decide_eq_true_eq, true_and]
          rw [h4, c4]

/-- What a subsession being built reports is what it sends, and exists. -/
theorem addSubs_ok {s : St} (hi : Inv s) (ts : Bool) : ∀ (rs : List Int) (b b' : Build), (∀ r, r ∈ b.uses ↔ r ∈ b.listed) → (∀ r ∈ b.listed, alive s r) →
    addSubs s ts b rs = some b' → (∀ r, r ∈ b'.uses ↔ r ∈ b'.listed) ∧ (∀ r ∈ b'.listed, alive s r) ∧ ∀ r, r ∈ b'.listed ↔ r ∈ b.listed ∨ r ∈ rs := by
  intro rs
  induction rs with
  | nil => intro b b' h1 h2 h; cases h; exact ⟨h1, h2, by simp⟩
  | cons r rs ih =>
    intro b b' h1 h2 h
    unfold addSubs at h
    cases hst : stream s r with
    | none => rw [hst] at h; cases h
    | some st =>
      rw [hst] at h
      simp only at h
      have hal : alive s r := ⟨st, (stream_iff hi).1 hst⟩
      have hm1 : r ≠ -1 := by obtain ⟨_, hx⟩ := hal; exact hi.noM1 _ hx
      split at h
      · cases h
      · cases hb : addSub b ts r st with
        | none => rw [hb] at h; cases h
        | some b1 =>
          rw [hb] at h
          have hl : (∀ q, q ∈ b1.listed ↔ q ∈ b.listed ∨ q = r) ∧ (∀ q, q ∈ b1.uses ↔ q ∈ b.uses ∨ q = r) := by
            unfold addSub at hb
            split at hb
            · cases hb
            · split at hb
              · split at hb
                · cases hb
                · split at hb
                  · rename_i hv; cases hb
                    simp [Build.listed, hv, hm1, or_assoc]
                  · cases hb
              · split at hb
                · cases hb
                · cases hb
                  refine ⟨fun q => ?_, fun q => by simp⟩
                  simp only [Build.listed, List.mem_append, List.mem_singleton]; grind
              · split at hb
                · cases hb
                · split at hb
                  · rename_i hv; cases hb
                    refine ⟨fun q => ?_, fun q => by simp⟩
                    simp only [Build.listed, List.mem_append, if_pos hm1, List.mem_singleton, hv]; grind
                  · cases hb
              · cases hb
                refine ⟨fun q => ?_, fun q => by simp⟩
                simp only [Build.listed, List.mem_append, List.mem_singleton]; grind
          obtain ⟨a1, a2, a3⟩ := ih b1 b' (fun q => by rw [hl.1, hl.2, h1]) (fun q hq => by
            rcases (hl.1 q).1 hq with h | h
            · exact h2 q h
            · subst h; exact hal) h
          refine ⟨a1, a2, fun q => ?_⟩
          rw [a3, hl.1, List.mem_cons, or_assoc]

/-- An RTSP request. -/
theorem addRTSP_ok {s : St} (hi : Inv s) (rs : List Int) (id : Int) (ts : Bool) (n : String)
    (hg : ∀ i k x, (i, Conn.rtsp k) ∈ s.conns → s.sess k = some x → x.name ≠ n) : ∃ t b, addRTSP s rs id ts n = .ok (t, b) ∧ Inv t ∧
    t.readers = s.readers ∧ t.sources = s.sources ∧ (∀ k, k < s.next → t.sess k = s.sess k) ∧
    (b = false → t.conns = s.conns ∧ t.table = s.table ∧ t.sess = s.sess) ∧
    (b = true → ∃ k x, t.conns = s.conns ++ [(id, .rtsp k)] ∧ t.sess k = some x ∧ x.name = n ∧ (∀ r, r ∈ x.listed ↔ r ∈ rs) ∧ (n, k) ∈ t.table) ∧
    (b = true ↔ rs ≠ [] ∧ id ∉ s.conns.map Prod.fst ∧ addSubs s ts ⟨[], -1, -1, []⟩ rs ≠ none) := by
  have hgn : ∀ k x, s.sess k = some x → x.name ≠ n := by
    intro k x h; obtain ⟨i, hik⟩ := hi.own k x h; exact hg i k x hik h
  have htn : ∀ j, (n, j) ∉ s.table := by
    intro j h; obtain ⟨x, hx, hn⟩ := (hi.tab n j).1 h; exact hgn j x hx hn
  have htf : s.table.filter (fun e => decide (e.1 ≠ n)) = s.table := by
    refine List.filter_eq_self.2 fun x hx => decide_eq_true ?_
    obtain ⟨m, j⟩ := x
    rintro rfl
    exact htn j hx
  unfold addRTSP
  by_cases h0 : rs = []
  · rw [if_pos h0]
    exact ⟨s, false, rfl, hi, rfl, rfl, fun _ _ => rfl, fun _ => ⟨rfl, rfl, rfl⟩, fun h => (by cases h), ⟨fun h => (by cases h), fun h => absurd h0 h.1⟩⟩
  rw [if_neg h0]
  by_cases h1 : id ∈ s.conns.map Prod.fst
  · rw [if_pos h1]
    exact ⟨s, false, rfl, hi, rfl, rfl, fun _ _ => rfl, fun _ => ⟨rfl, rfl, rfl⟩, fun h => (by cases h), ⟨fun h => (by cases h), fun h => absurd h1 h.2.1⟩⟩
  rw [if_neg h1]
  simp only
  cases hb : addSubs s ts ⟨[], -1, -1, []⟩ rs with
  | none =>
    simp only [deleteSession, upd_same, Outcome.map_ok]
    have hs : upd (upd s.sess s.next (some ⟨n, [], []⟩)) s.next none = s.sess := by
      funext j
      by_cases hj : j = s.next
      · subst hj; rw [upd_same, hi.fresh _ (Nat.le_refl _)]
      · rw [upd_other _ _ hj, upd_other _ _ hj]
    rw [hs, htf]
    refine ⟨_, false, rfl, ?_, rfl, rfl, fun _ _ => rfl, fun _ => ⟨rfl, rfl, rfl⟩, fun h => (by cases h), ⟨fun h => (by cases h), fun h => absurd rfl h.2.2⟩⟩
    exact ⟨hi.rKey, hi.cKey, hi.src, hi.same, hi.there, hi.open', hi.sInj, hi.own, fun k h => hi.fresh k (Nat.le_of_succ_le h), hi.tab, hi.names, hi.noM1⟩
  | some b =>
    obtain ⟨u1, u2, u3⟩ := addSubs_ok hi ts rs _ b (by intro r; simp [Build.listed]) (by intro r h; simp [Build.listed] at h) hb
    have hs : (fun j => if (n, j) ∈ s.table then none else upd s.sess s.next (some ⟨n, b.listed, b.uses⟩) j) = upd s.sess s.next (some ⟨n, b.listed, b.uses⟩) := by
      funext j; rw [if_neg (htn j)]
    simp only [register]
    rw [hs, htf]
    obtain ⟨F, hF⟩ : ∃ F, F = upd s.sess s.next (some (⟨n, b.listed, b.uses⟩ : Sess)) := ⟨_, rfl⟩
    rw [← hF]
    have F0 : F s.next = some ⟨n, b.listed, b.uses⟩ := by rw [hF]; exact upd_same _ _ _
    have F1 : ∀ k, k ≠ s.next → F k = s.sess k := by intro k hk; rw [hF]; exact upd_other _ _ hk
    have hlt : ∀ k x, s.sess k = some x → k ≠ s.next := by
      rintro k x h rfl; rw [hi.fresh _ (Nat.le_refl _)] at h; cases h
    have hnew : ∀ i k, (i, Conn.rtsp k) ∈ s.conns → k ≠ s.next := by
      intro i k h; obtain ⟨x, hx⟩ := hi.open' i k h; exact hlt k x hx
    have mem : ∀ e : Int × Conn, e ∈ s.conns ++ [(id, Conn.rtsp s.next)] ↔ e ∈ s.conns ∨ e = (id, Conn.rtsp s.next) := by intro e; simp
    refine ⟨_, true, rfl, ?_, rfl, rfl, fun k hk => F1 k (Nat.ne_of_lt hk), fun h => (by cases h), fun _ => ⟨s.next, ⟨n, b.listed, b.uses⟩, rfl, F0, rfl, ?_, ?_⟩, ⟨fun _ => ⟨h0, h1, Option.some_ne_none b⟩, fun _ => rfl⟩⟩
    · refine ⟨hi.rKey, ?_, hi.src, ?_, ?_, ?_, ?_, ?_, ?_, ?_, ?_, hi.noM1⟩
      · simp only [List.map_append, List.map_cons, List.map_nil]
        exact List.nodup_append.2 ⟨hi.cKey, (by simp), by
          intro a ha b hb hab; cases List.mem_singleton.1 hb; subst hab; exact h1 ha⟩
      · intro i c hc r
        rcases (mem _).1 hc with h | h
        · have := hi.same i c h r
          cases c with
          | rtp _ _ => exact this
          | rtsp k => simp only [reports, sends, F1 k (hnew i k h)] at this ⊢; exact this
        · injection h with h1 h2; subst h2
          simp only [reports, sends, F0]
          constructor
          · rintro ⟨x, hx, hr⟩; cases hx; exact ⟨_, rfl, (u1 r).1 hr⟩
          · rintro ⟨x, hx, hr⟩; cases hx; exact ⟨_, rfl, (u1 r).2 hr⟩
      · intro i c hc r hr
        rcases (mem _).1 hc with h | h
        · refine hi.there i c h r ?_
          cases c with
          | rtp _ _ => exact hr
          | rtsp k => simp only [reports, F1 k (hnew i k h)] at hr ⊢; exact hr
        · injection h with h1 h2; subst h2
          simp only [reports, F0] at hr
          obtain ⟨x, hx, hr⟩ := hr
          cases hx; exact u2 r hr
      · intro i k h
        rcases (mem _).1 h with h | h
        · obtain ⟨x, hx⟩ := hi.open' i k h; exact ⟨x, (F1 k (hnew i k h)).trans hx⟩
        · injection h with h1 h2; injection h2 with h2; subst h2; exact ⟨_, F0⟩
      · intro i j k h h'
        rcases (mem _).1 h with h | h <;> rcases (mem _).1 h' with h' | h'
        · exact hi.sInj i j k h h'
        · injection h' with _ h2; injection h2 with h2; exact absurd h2 (hnew i k h)
        · injection h with _ h2; injection h2 with h2; exact absurd h2 (hnew j k h')
        · injection h with a _; injection h' with b _; rw [a, b]
      · intro k x h
        by_cases hk : k = s.next
        · subst hk; exact ⟨id, (mem _).2 (.inr rfl)⟩
        · have h' : s.sess k = some x := (F1 k hk).symm.trans h
          obtain ⟨i, hik⟩ := hi.own k x h'; exact ⟨i, (mem _).2 (.inl hik)⟩
      · intro k hk
        have hk : s.next + 1 ≤ k := hk
        exact (F1 k (by omega)).trans (hi.fresh k (by omega))
      · intro m k
        show (m, k) ∈ s.table ++ [(n, s.next)] ↔ ∃ x, F k = some x ∧ x.name = m
        rw [List.mem_append, List.mem_singleton]
        by_cases hk : k = s.next
        · subst hk
          rw [F0]
          constructor
          · rintro (h | h)
            · obtain ⟨x, hx, _⟩ := (hi.tab _ _).1 h; exact absurd rfl (hlt _ x hx)
            · injection h with h1 h2; exact ⟨_, rfl, h1.symm⟩
          · rintro ⟨x, hx, hn⟩; cases hx; right; rw [← hn]
        · rw [F1 k hk, ← hi.tab]
          constructor
          · rintro (h | h)
            · exact h
            · injection h with h1 h2; exact absurd h2 hk
          · exact .inl
      · intro j k x y hx hy h
        have hx : F j = some x := hx
        have hy : F k = some y := hy
        by_cases hj : j = s.next <;> by_cases hk : k = s.next
        · rw [hj, hk]
        · subst hj; rw [F0] at hx; cases hx; rw [F1 k hk] at hy; exact absurd h.symm (hgn k y hy)
        · subst hk; rw [F0] at hy; cases hy; rw [F1 j hj] at hx; exact absurd h (hgn j x hx)
        · rw [F1 j hj] at hx; rw [F1 k hk] at hy; exact hi.names j k x y hx hy h
    · intro r; rw [u3]; simp [Build.listed]
    · exact List.mem_append_right _ (List.mem_singleton.2 rfl)

end Lms.Sink
