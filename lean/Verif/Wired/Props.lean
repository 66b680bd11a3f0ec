import Verif.Wired.Lemmas
import Verif.Net.Ends

/-! C90: the network made by the calls is the one the frames flow through. -/

namespace Lms.Wired

open FilterConn
open Net (Graph handled made S)

variable {α : Type}

/-- **C90.** Whatever calls have connected, shared and disconnected the filters (none being given the same
reader twice), the result is a proper network: every end of a connected queue belongs to one filter that
writes it and at least one that reads it, and the filters the queue notifies and waits for are exactly those
that read it. -/
theorem connections_make_a_network {mr mw : Nat → Nat} {s : St} (h : Reach mr mw s) {g : Graph} (hd : Describes g s) :
    g.Ok ∧ (∀ q k, k ∈ g.dst q ↔ q ∈ g.ins k) ∧
    ∀ q, Conn s q → (∃ w, ∀ k, q ∈ g.outs k ↔ k = w) ∧ ∃ r, q ∈ g.ins r := by
  obtain ⟨hi, hg⟩ := FilterConn.reach_inv h
  have hb := reach_back h
  have onq : ∀ q, Conn s q → ∃ o, held s o ∧ (s.rdr o).queue = some q ∧ fed s o := by
    rintro q ⟨f, w, hc⟩
    obtain ⟨hw, o, ho, hq⟩ := hi.conn q f w hc
    exact ⟨o, ho, hq, q, hq, hw⟩
  have both : ∀ q k, k ∈ g.dst q ↔ q ∈ g.ins k := by
    intro q k
    rw [hd.ins]
    by_cases hc : Conn s q
    · obtain ⟨o, ho, hq, hf⟩ := onq q hc
      rw [hd.dst q o hc ho hq]
      constructor
      · intro hk
        obtain ⟨e, h1, h2, h3⟩ := (hb o ho hf).1 k hk
        exact ⟨hc, e, h1, h2, o, h3, hq⟩
      · rintro ⟨_, e, h1, rfl, p, h3, h4⟩
        have : p = o := hi.rInj p o q ⟨e, h1, h3⟩ ho h4 hq
        subst this
        exact (hg.reg e h1 p h3).1
    · rw [hd.none q hc]
      simp [hc]
  refine ⟨⟨fun k q hk => (both q k).2 hk, fun k q hk => ?_, hd.outsOnce, fun q => ?_⟩, both, fun q hc => ⟨?_, ?_⟩⟩
  · obtain ⟨⟨f, w, hf⟩, e, h1, rfl, rfl⟩ := (hd.outs k q).1 hk
    obtain ⟨c, hc⟩ := hi.wCell e h1
    rw [hf] at hc
    cases hc
    exact hd.src _ _ _ hf
  · by_cases hc : Conn s q
    · obtain ⟨o, ho, hq, hf⟩ := onq q hc
      rw [hd.dst q o hc ho hq]
      exact (hb o ho hf).2
    · rw [hd.none q hc]; exact List.nodup_nil
  · obtain ⟨f, w, hcell⟩ := hc
    obtain ⟨⟨e, h1, rfl⟩, _⟩ := hi.conn q f w hcell
    refine ⟨e.f, fun k => ?_⟩
    rw [hd.outs]
    constructor
    · rintro ⟨_, e', h2, rfl, h3⟩
      rw [hi.wInj h2 h1 h3]
    · rintro rfl
      exact ⟨⟨f, w, hcell⟩, e, h1, rfl, rfl⟩
  · obtain ⟨o, ⟨e, h1, h2⟩, hq, _⟩ := onq q hc
    exact ⟨e.f, (hd.ins _ _).2 ⟨hc, e, h1, rfl, o, h2, hq⟩⟩

/-- Is the queue there and connected (src/FrameQueue.hh:146)? -/
def isConn (s : St) (q : Nat) : Bool := match s.cell q with | .live true _ _ => true | _ => false

theorem isConn_iff (s : St) (q : Nat) : isConn s q = true ↔ Conn s q := by
  unfold isConn Conn
  cases hc : s.cell q with
  | none => simp
  | freed => simp
  | live c f w => cases c <;> simp

/-- The network of the connections, in the order they were made. -/
def wired (s : St) (periodic : Nat → Bool) : Graph where
  ins k := ((s.rs.filter fun e => e.f = k).filterMap fun e => e.obj.bind fun o => (s.rdr o).queue).filter (isConn s)
  outs k := ((s.ws.filter fun e => e.f = k).map (·.q)).filter (isConn s)
  src q := match s.cell q with | .live _ f _ => f | _ => 0
  dst q := if isConn s q then
      match (s.rs.filterMap (·.obj)).find? fun o => (s.rdr o).queue = some q with
      | some o => (s.rdr o).filters
      | none => []
    else []
  periodic := periodic

/-- **C90.** There always is such a network. -/
theorem network_exists {mr mw : Nat → Nat} {s : St} (h : Reach mr mw s) (periodic : Nat → Bool) :
    Describes (wired s periodic) s := by
  obtain ⟨hi, _⟩ := FilterConn.reach_inv h
  refine ⟨fun k q => ?_, fun k q => ?_, fun k => ?_, fun q f w hc => ?_, fun q o hc ho hq => ?_, fun q hc => ?_⟩
  · show q ∈ List.filter _ _ ↔ _
    rw [List.mem_filter, isConn_iff, List.mem_filterMap]
    constructor
    · rintro ⟨⟨e, h1, h2⟩, hc⟩
      obtain ⟨h3, h4⟩ := List.mem_filter.1 h1
      rcases ho : e.obj with _ | o
      · rw [ho] at h2; cases h2
      · rw [ho] at h2
        exact ⟨hc, e, h3, by simpa using h4, o, ho, h2⟩
    · rintro ⟨hc, e, h1, h2, o, h3, h4⟩
      exact ⟨⟨e, List.mem_filter.2 ⟨h1, by simpa using h2⟩, by rw [h3]; exact h4⟩, hc⟩
  · show q ∈ List.filter _ _ ↔ _
    rw [List.mem_filter, isConn_iff, List.mem_map]
    constructor
    · rintro ⟨⟨e, h1, h2⟩, hc⟩
      obtain ⟨h3, h4⟩ := List.mem_filter.1 h1
      exact ⟨hc, e, h3, by simpa using h4, h2⟩
    · rintro ⟨hc, e, h1, h2, h3⟩
      exact ⟨⟨e, List.mem_filter.2 ⟨h1, by simpa using h2⟩, h3⟩, hc⟩
  · show (List.filter _ _).Nodup
    refine List.Pairwise.filter _ ?_
    have hp : (s.ws.filter fun e => e.f = k).Pairwise fun a b => a.q ≠ b.q := by
      have hk := (hi.wKey.filter fun e => e.f = k)
      refine hk.imp_of_mem fun {a b} ha hb hn he => hn ?_
      rw [hi.wInj (List.mem_filter.1 ha).1 (List.mem_filter.1 hb).1 he]
      exact ⟨rfl, rfl⟩
    exact List.pairwise_map.2 hp
  · show (match s.cell q with | .live _ f _ => f | _ => 0) = f
    rw [hc]
  · show (if isConn s q then _ else _) = _
    rw [if_pos ((isConn_iff s q).2 hc)]
    rcases hf : (s.rs.filterMap (·.obj)).find? (fun o => (s.rdr o).queue = some q) with _ | p
    · rw [List.find?_eq_none] at hf
      obtain ⟨e, h1, h2⟩ := ho
      exact absurd hq (by simpa using hf o (List.mem_filterMap.2 ⟨e, h1, h2⟩))
    · have h1 := List.find?_some hf
      have h2 := List.mem_of_find?_eq_some hf
      obtain ⟨e, h3, h4⟩ := List.mem_filterMap.1 h2
      have : p = o := hi.rInj p o q ⟨e, h3, h4⟩ ho (by simpa using h1) hq
      rw [← this, hf]
  · show (if isConn s q then _ else _) = _
    rw [if_neg fun hh => hc ((isConn_iff s q).1 hh)]

/-- **C90.** After a successful connect there is a new queue which only the writing filter fills and only the
reading filter empties: however the filters run from then on, what the reading filter processes or passes
over in it are frames the writing filter committed, in their order and none twice, and with those that wait
and those counted as lost they are all; while a frame waits, the registered reading filter is scheduled, at
work, or about to be notified. -/
theorem connect_lets_frames_flow {mr mw : Nat → Nat} {s t : St} (h : Reach mr mw s) {w r : Nat} {wid rid : Int} {a : Hooks}
    (hc : step s (.connect w r wid rid a) = .ok (t, true)) {g : Graph} (hd : Describes g t) :
    ∃ q, s.cell q = .none ∧ (∀ k, q ∈ g.outs k ↔ k = w) ∧ (∀ k, q ∈ g.ins k ↔ k = r) ∧
      ∀ (size : Nat → Nat) (_ : ∀ q, 3 ≤ size q) (d : Nat → Nat → α) (time : Nat → Nat) (ops : List (Net.Op α)),
        ∃ n outs, runOps (S.step g) (S.init g size d time) ops = .ok (n, outs) ∧
          (∀ k, k ≠ r → handled q k outs = []) ∧
          (∃ waiting : List α, (handled q r outs ++ waiting).Sublist (made q outs) ∧
            (made q outs).length = (handled q r outs).length + waiting.length + (n.ring q).lost ∧
            waiting.length ≤ (n.ring q).getElements) ∧
          (n.pool.reg (r : Int) = some r → 0 < (n.ring q).getElements →
            r ∈ n.pool.q.queue ∨ (∃ v, n.pool.ph v = .run r ∨ n.pool.ph v = .post r) ∨ Net.Notifies g n q r) := by
  obtain ⟨hi, _⟩ := FilterConn.reach_inv h
  have ht : Reach mr mw t := .step (op := .connect w r wid rid a) h trivial hc
  obtain ⟨ok, both, ends⟩ := connections_make_a_network ht hd
  have hne : w ≠ r := by
    rintro rfl
    simp only [step, connect, if_true] at hc
    cases hc
  obtain ⟨t', b', h1, hcs⟩ := connect_ok hi wid rid a hne
  simp only [step] at hc
  rw [h1] at hc
  cases hc
  rcases hcs with ⟨_, rfl, _⟩ | ⟨hb, _⟩ | ⟨hb, _⟩ | ⟨hb, _⟩
  · have hcell : (connected s w r wid rid).cell s.nextQ = .live true w wid := upd_same _ _ _
    have hconn : Conn (connected s w r wid rid) s.nextQ := ⟨_, _, hcell⟩
    have hdst : g.dst s.nextQ = [r] := by
      have hrd : (connected s w r wid rid).rdr s.nextR = ⟨some s.nextQ, [r]⟩ := upd_same _ _ _
      rw [hd.dst s.nextQ s.nextR hconn ⟨⟨r, rid, some s.nextR⟩, List.mem_append_right _ (List.mem_singleton.2 rfl), rfl⟩
        (by rw [hrd]), hrd]
    have hins : ∀ k, s.nextQ ∈ g.ins k ↔ k = r := by
      intro k
      rw [← both, hdst, List.mem_singleton]
    obtain ⟨⟨v, hv⟩, _⟩ := ends _ hconn
    have hvw : v = w := by
      refine ((hv w).1 ?_).symm
      exact (hd.outs _ _).2 ⟨hconn, ⟨w, wid, s.nextQ⟩, List.mem_append_right _ (List.mem_singleton.2 rfl), rfl, rfl⟩
    subst hvw
    refine ⟨s.nextQ, hi.freshQ _ (Nat.le_refl _), hv, hins, fun size hs d time ops => ?_⟩
    obtain ⟨n, outs, hr, hf⟩ := Net.frames_flow_in_order g ok size hs d time ops
    refine ⟨n, outs, hr, fun k hk => ?_, ?_, fun hreg hpos => ?_⟩
    · exact (Net.only_the_ends_take_part g ok size hs d time ops n outs hr s.nextQ).1 k (fun hh => hk ((hins k).1 hh))
    · obtain ⟨wt, f1, f2, f3⟩ := hf s.nextQ r (by rw [hdst]; simp)
      exact ⟨wt, f1, f2, by rcases f3 with f3 | ⟨f3, _⟩ <;> omega⟩
    · exact Net.no_frame_left_behind g ok size hs d time ops n outs hr r s.nextQ ((hins r).2 rfl) hreg hpos
  · cases hb
  · cases hb
  · cases hb

/-- **C90.** After a successful share both filters read the same queue and, however the filters run from then
on, what the one has processed or passed over of it is what the other has, up to one frame that one of them
has yet to deal with. -/
theorem share_lets_both_have_the_frames {mr mw : Nat → Nat} {s t : St} (h : Reach mr mw s) {f f' : Nat} {gid fid : Int} {rcfg : Bool}
    (hp : Plain s (.share f f' gid fid rcfg)) (hc : step s (.share f f' gid fid rcfg) = .ok (t, true)) {g : Graph} (hd : Describes g t) :
    ∃ o q, ⟨f, fid, some o⟩ ∈ s.rs ∧ (s.rdr o).queue = some q ∧ q ∈ g.ins f ∧ q ∈ g.ins f' ∧
      ∀ (size : Nat → Nat) (_ : ∀ q, 3 ≤ size q) (d : Nat → Nat → α) (time : Nat → Nat) (ops : List (Net.Op α)),
        ∃ n outs, runOps (S.step g) (S.init g size d time) ops = .ok (n, outs) ∧
          (handled q f outs).Sublist (made q outs) ∧ (handled q f' outs).Sublist (made q outs) ∧
          (handled q f outs = handled q f' outs ∨
            ∃ x, handled q f outs = handled q f' outs ++ [x] ∨ handled q f' outs = handled q f outs ++ [x]) := by
  obtain ⟨hi, hg⟩ := FilterConn.reach_inv h
  have ht : Reach mr mw t := .step h hp hc
  obtain ⟨ok, both, _⟩ := connections_make_a_network ht hd
  simp only [step] at hc
  by_cases hn : ∃ e ∈ s.rs, (e.f = f ∧ e.id = fid ∨ e.f = f' ∧ e.id = gid) ∧ e.obj = none
  · have := (share_null hc hi hn).2; cases this
  obtain ⟨t', b', h1, h2⟩ := share_ok hi f f' gid fid rcfg (fun e he hc h => hn ⟨e, he, .inl hc, h⟩) (fun e he hc h => hn ⟨e, he, .inr hc, h⟩)
  rw [h1] at hc
  cases hc
  rcases h2 with ⟨hb, _⟩ | ⟨_, hfg, _, _, hit, o, ho, ⟨q, hoq, hwq⟩, hrs, hws, _, _, _, _, _, hq, hfs, _⟩
  · cases hb
  · have ho' : (⟨f, fid, some o⟩ : RE) ∈ t.rs := by
      rw [hrs]
      exact List.mem_append_left _ ((filter_mem_iff _).2 ⟨ho, fun hk => hfg hk.1⟩)
    have hqt : (t.rdr o).queue = some q := hq.trans hoq
    have hconn : Conn t q := by
      obtain ⟨e, h1, h2⟩ := hwq
      exact hit.both q ⟨e, by rw [hws]; exact h1, h2⟩ ⟨o, ⟨_, ho', rfl⟩, hqt⟩
    have hf1 : q ∈ g.ins f := (hd.ins _ _).2 ⟨hconn, _, ho', rfl, o, rfl, hqt⟩
    have hf2 : q ∈ g.ins f' := (hd.ins _ _).2 ⟨hconn, ⟨f', gid, some o⟩, by
      rw [hrs]; exact List.mem_append_right _ (List.mem_singleton.2 rfl), rfl, o, rfl, hqt⟩
    refine ⟨o, q, ho, hoq, hf1, hf2, fun size hs d time ops => ?_⟩
    obtain ⟨n, outs, hr, hf⟩ := Net.frames_flow_in_order g ok size hs d time ops
    refine ⟨n, outs, hr, ?_, ?_, ?_⟩
    · obtain ⟨_, f1, _⟩ := hf q f ((both q f).2 hf1)
      exact (List.sublist_append_left _ _).trans f1
    · obtain ⟨_, f1, _⟩ := hf q f' ((both q f').2 hf2)
      exact (List.sublist_append_left _ _).trans f1
    · exact Net.sharers_get_the_same_frames g ok size hs d time ops n outs hr q f' f ((both q f').2 hf2) ((both q f).2 hf1)

/-- **C90.** After a filter's reader has been disconnected, that filter gets no more frames of that queue, however
the filters run; the others that share the reader still read it. -/
theorem disconnected_reader_gets_nothing {mr mw : Nat → Nat} {s t : St} (h : Reach mr mw s) {f o q : Nat} {id : Int} {d b : Bool}
    (he : (⟨f, id, some o⟩ : RE) ∈ s.rs) (hq : (s.rdr o).queue = some q)
    (hc : step s (.disconnectR f id d) = .ok (t, b)) {g : Graph} (hd : Describes g t) :
    (∀ k, k ≠ f → Reads s k q → (∃ e ∈ s.ws, e.q = q) → q ∈ g.ins k) ∧
      ∀ (size : Nat → Nat) (_ : ∀ q, 3 ≤ size q) (d : Nat → Nat → α) (time : Nat → Nat) (ops : List (Net.Op α)),
        ∃ n outs, runOps (S.step g) (S.init g size d time) ops = .ok (n, outs) ∧ handled q f outs = [] := by
  obtain ⟨hi, hg⟩ := FilterConn.reach_inv h
  have ht : Reach mr mw t := .step (op := .disconnectR f id d) h trivial hc
  obtain ⟨hit, _⟩ := FilterConn.reach_inv ht
  obtain ⟨ok, _, _⟩ := connections_make_a_network ht hd
  obtain ⟨t', h1, h3, h4, _, h6⟩ := disconnectR_removes h he d
  rw [h1] at hc
  cases hc
  have hm : ∀ e, e ∈ t.rs ↔ e ∈ s.rs ∧ ¬ (e.f = f ∧ e.id = id) := by
    intro e; rw [h3]; simp only [List.mem_filter, decide_eq_true_eq]
  have hno : q ∉ g.ins f := by
    intro hh
    obtain ⟨_, e, e1, e2, p, e3, e4⟩ := (hd.ins _ _).1 hh
    obtain ⟨es, ek⟩ := (hm e).1 e1
    rw [h6 e e1 p e3] at e4
    have : p = o := hi.rInj p o q ⟨e, es, e3⟩ ⟨_, he, rfl⟩ e4 hq
    subst this
    have := hg.one e es _ he e2 p e3 rfl
    rw [this] at ek
    exact ek ⟨rfl, rfl⟩
  refine ⟨fun k hk hr hw => ?_, fun size hs d time ops => ?_⟩
  · obtain ⟨e, e1, rfl, p, e3, e4⟩ := hr
    have e5 : e ∈ t.rs := (hm e).2 ⟨e1, fun hh => hk hh.1⟩
    have e6 : (t.rdr p).queue = some q := by rw [h6 e e5 p e3]; exact e4
    refine (hd.ins _ _).2 ⟨?_, e, e5, rfl, p, e3, e6⟩
    obtain ⟨x, x1, x2⟩ := hw
    exact hit.both q ⟨x, by rw [h4]; exact x1, x2⟩ ⟨p, ⟨e, e5, e3⟩, e6⟩
  · obtain ⟨n, outs, hr, _⟩ := Net.frames_flow_in_order g ok size hs d time ops
    exact ⟨n, outs, hr, (Net.only_the_ends_take_part g ok size hs d time ops n outs hr q).1 f hno⟩

/-- **C90.** After a filter's writer has been disconnected nothing is committed to its queue any more, however
the filters run, and nobody gets a frame of it. -/
theorem disconnected_writer_gives_nothing {mr mw : Nat → Nat} {s t : St} (h : Reach mr mw s) {f q : Nat} {id : Int} {d b : Bool}
    (he : (⟨f, id, q⟩ : WE) ∈ s.ws) (hc : step s (.disconnectW f id d) = .ok (t, b)) {g : Graph} (hd : Describes g t)
    (size : Nat → Nat) (hs : ∀ q, 3 ≤ size q) (d' : Nat → Nat → α) (time : Nat → Nat) (ops : List (Net.Op α)) :
    ∃ n outs, runOps (S.step g) (S.init g size d' time) ops = .ok (n, outs) ∧ made q outs = [] ∧ ∀ k, handled q k outs = [] := by
  obtain ⟨hi, _⟩ := FilterConn.reach_inv h
  have ht : Reach mr mw t := .step (op := .disconnectW f id d) h trivial hc
  obtain ⟨hit, _⟩ := FilterConn.reach_inv ht
  obtain ⟨ok, _, _⟩ := connections_make_a_network ht hd
  obtain ⟨t', b', h1, _, h3, _⟩ := disconnectWriter_ok hi f id d
  simp only [step] at hc
  rw [h1] at hc
  cases hc
  have hnc : ¬ Conn t q := by
    rintro ⟨x, y, hc⟩
    obtain ⟨⟨e, e1, e2⟩, _⟩ := hit.conn q x y hc
    rw [h3] at e1
    obtain ⟨e3, e4⟩ := List.mem_filter.1 e1
    rw [hi.wInj e3 he e2] at e4
    simp at e4
  obtain ⟨n, outs, hr, _⟩ := Net.frames_flow_in_order g ok size hs d' time ops
  obtain ⟨a1, a2⟩ := Net.only_the_ends_take_part g ok size hs d' time ops n outs hr q
  exact ⟨n, outs, hr, a2 fun k hk => hnc ((hd.outs _ _).1 hk).1, fun k => a1 k fun hk => hnc ((hd.ins _ _).1 hk).1⟩

end Lms.Wired
