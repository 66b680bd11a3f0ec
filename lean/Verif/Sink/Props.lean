import Verif.Sink.Mux

/-!
# C46: the transmitter's connections stay consistent with its readers

`Good` (`Steps`) says what is expected of the caller; the theorems at the end show what happens otherwise.
-/

namespace Lms.Sink

/-- What a request does to the transmitter, without the model's own bookkeeping. -/
inductive Reach : St → Prop where
  | init : Reach .init
  | step {s t : St} {op : Op} {b : Bool} : Reach s → Good s op → step s op = .ok (t, b) → Reach t

/-- An RTP request under the invariant. -/
theorem addRTP_ok {s : St} (hi : Inv s) (rs : List Int) (id port : Int) (f : Fmt) : ∃ t b, addRTP s rs id port f = .ok (t, b) ∧ Inv t ∧
    (b = false → t = s) ∧ (b = true → ∃ l u, t = { s with conns := s.conns ++ [(id, .rtp l u)] }) := by
  unfold addRTP
  by_cases h1 : id ∈ s.conns.map Prod.fst
  · rw [if_pos h1]; exact ⟨s, false, rfl, hi, fun _ => rfl, fun h => (by cases h)⟩
  rw [if_neg h1]
  by_cases h2 : (rs.any fun r => decide (stream s r = none)) = true
  · rw [if_pos h2]; exact ⟨s, false, rfl, hi, fun _ => rfl, fun h => (by cases h)⟩
  rw [if_neg h2]
  have h2 : (rs.any fun r => decide (stream s r = none)) = false := by simpa using h2
  cases f with
  | none => exact ⟨s, false, rfl, hi, fun _ => rfl, fun h => (by cases h)⟩
  | std =>
    obtain ⟨t, b, e1, e2, e3, _, e5⟩ := addOne_ok hi rs id port false h1
    exact ⟨t, b, e1, e2, e3, fun h => by obtain ⟨r, _, h⟩ := e5 h; exact ⟨_, _, h⟩⟩
  | ultragrid =>
    obtain ⟨t, b, e1, e2, e3, _, e5⟩ := addOne_ok hi rs id port true h1
    exact ⟨t, b, e1, e2, e3, fun h => by obtain ⟨r, _, h⟩ := e5 h; exact ⟨_, _, h⟩⟩
  | mpegts =>
    obtain ⟨t, b, e1, e2, e3, _, e5⟩ := addMpegTs_ok hi rs id port h1 h2
    exact ⟨t, b, e1, e2, e3, fun h => by obtain ⟨l, u, h, _⟩ := e5 h; exact ⟨_, _, h⟩⟩

theorem step_inv {s : St} (hi : Inv s) {op : Op} (hg : Good s op) : ∃ t b, step s op = .ok (t, b) ∧ Inv t := by
  cases op with
  | addReader r st => exact ⟨_, _, rfl, inv_addReader hi st hg⟩
  | delReader r => obtain ⟨t, b, h, h', _⟩ := delReader_ok hi r hg; exact ⟨t, b, h, h'⟩
  | addRTSP rs id ts n => obtain ⟨t, b, h, h', _⟩ := addRTSP_ok hi rs id ts n hg; exact ⟨t, b, h, h'⟩
  | addRTP rs id port f => obtain ⟨t, b, h, h', _⟩ := addRTP_ok hi rs id port f; exact ⟨t, b, h, h'⟩
  | removeConn id => obtain ⟨t, b, h, h', _⟩ := removeConn_ok hi id; exact ⟨t, b, h, h'⟩

theorem Reach.inv {s : St} (h : Reach s) : Inv s := by
  induction h with
  | init => exact inv_init
  | step _ hg hs ih =>
    obtain ⟨t, b, h, h'⟩ := step_inv ih hg
    rw [h] at hs; cases hs; exact h'

/-- No request ever runs into undefined behaviour. -/
theorem never_ub {s : St} (h : Reach s) {op : Op} (hg : Good s op) : ∃ t b, step s op = .ok (t, b) := by
  obtain ⟨t, b, h, _⟩ := step_inv h.inv hg
  exact ⟨t, b, h⟩

/-- Every connection there can report its readers; each reader reported or sent is there, with its source, and
a connection reports exactly the readers whose data it sends. Connection numbers are unique. -/
theorem connections_consistent {s : St} (h : Reach s) : (s.conns.map Prod.fst).Nodup ∧
    ∀ i c, (i, c) ∈ s.conns → ∃ l, listed s c = .ok l ∧ (∀ r, r ∈ l ↔ sends s c r) ∧
      ∀ r ∈ l, ∃ st st', (r, some st) ∈ s.readers ∧ (r, st') ∈ s.sources := by
  have hi := h.inv
  refine ⟨hi.cKey, fun i c hc => ?_⟩
  have hlist : ∃ l, listed s c = .ok l ∧ ∀ r, r ∈ l ↔ reports s c r := by
    cases c with
    | rtp l u => exact ⟨l, rfl, fun _ => Iff.rfl⟩
    | rtsp k =>
      obtain ⟨x, hx⟩ := hi.open' i k hc
      refine ⟨x.listed, by rw [listed, hx], fun r => ⟨fun h => ⟨x, hx, h⟩, ?_⟩⟩
      rintro ⟨y, hy, h⟩; rw [hx] at hy; cases hy; exact h
  obtain ⟨l, h1, h2⟩ := hlist
  refine ⟨l, h1, fun r => by rw [h2, hi.same i c hc], fun r hr => ?_⟩
  have ha := hi.there i c hc r ((h2 r).1 hr)
  obtain ⟨st', h'⟩ := hi.src r ha
  obtain ⟨st, h⟩ := ha
  exact ⟨st, st', h, h'⟩

/-- The RTSP server offers exactly the RTSP connections there, each under its own name, no two under one. -/
theorem server_consistent {s : St} (h : Reach s) :
    (∀ i k, (i, Conn.rtsp k) ∈ s.conns → ∃ x, s.sess k = some x ∧ (x.name, k) ∈ s.table) ∧
    (∀ n k, (n, k) ∈ s.table → ∃ i, (i, Conn.rtsp k) ∈ s.conns) ∧
    (∀ n k j, (n, k) ∈ s.table → (n, j) ∈ s.table → k = j) ∧
    ∀ i j k, (i, Conn.rtsp k) ∈ s.conns → (j, Conn.rtsp k) ∈ s.conns → i = j := by
  have hi := h.inv
  refine ⟨fun i k hc => ?_, fun n k ht => ?_, fun n k j h1 h2 => ?_, hi.sInj⟩
  · obtain ⟨x, hx⟩ := hi.open' i k hc
    exact ⟨x, hx, (hi.tab _ _).2 ⟨x, hx, rfl⟩⟩
  · obtain ⟨x, hx, _⟩ := (hi.tab _ _).1 ht
    exact hi.own k x hx
  · obtain ⟨x, hx, hxn⟩ := (hi.tab _ _).1 h1
    obtain ⟨y, hy, hyn⟩ := (hi.tab _ _).1 h2
    exact hi.names k j x y hx hy (hxn.trans hyn.symm)

/-- A refused request for a connection changes nothing. -/
theorem refused_connection {s t : St} {op : Op} (hr : Reach s) (hg : Good s op) (hop : (∃ rs id ts n, op = .addRTSP rs id ts n) ∨ ∃ rs id p f, op = .addRTP rs id p f)
    (h : step s op = .ok (t, false)) : t.readers = s.readers ∧ t.sources = s.sources ∧ t.conns = s.conns ∧ t.table = s.table ∧ t.sess = s.sess := by
  rcases hop with ⟨rs, id, ts, n, rfl⟩ | ⟨rs, id, p, f, rfl⟩
  · obtain ⟨t', b, e1, _, e3, e4, _, e6, _⟩ := addRTSP_ok hr.inv rs id ts n hg
    rw [step, e1] at h; cases h
    obtain ⟨a, b, c⟩ := e6 rfl
    exact ⟨e3, e4, a, b, c⟩
  · obtain ⟨t', b, e1, _, e3, _⟩ := addRTP_ok hr.inv rs id p f
    rw [step, e1] at h; cases h
    cases e3 rfl
    exact ⟨rfl, rfl, rfl, rfl, rfl⟩

/-- A connection accepted is added under its number, after those there, which stay as they are. -/
theorem accepted_connection {s t : St} {op : Op} (hr : Reach s) (hg : Good s op) {id : Int}
    (hop : (∃ rs ts n, op = .addRTSP rs id ts n) ∨ ∃ rs p f, op = .addRTP rs id p f) (h : step s op = .ok (t, true)) :
    t.readers = s.readers ∧ t.sources = s.sources ∧ (∃ c, t.conns = s.conns ++ [(id, c)]) ∧
      ∀ i c, (i, c) ∈ s.conns → ∀ r, (reports t c r ↔ reports s c r) ∧ (sends t c r ↔ sends s c r) := by
  rcases hop with ⟨rs, ts, n, rfl⟩ | ⟨rs, p, f, rfl⟩
  · obtain ⟨t', b, e1, _, e3, e4, e5, _, e7, _⟩ := addRTSP_ok hr.inv rs id ts n hg
    rw [step, e1] at h; cases h
    obtain ⟨k, x, a, _⟩ := e7 rfl
    refine ⟨e3, e4, ⟨_, a⟩, fun i c hc r => ?_⟩
    cases c with
    | rtp _ _ => exact ⟨Iff.rfl, Iff.rfl⟩
    | rtsp k =>
      obtain ⟨x, hx⟩ := hr.inv.open' i k hc
      have hk : k < s.next := by
        apply Nat.lt_of_not_le; intro hle; rw [hr.inv.fresh k hle] at hx; cases hx
      simp only [reports, sends, e5 k hk, true_and]
  · obtain ⟨t', b, e1, _, _, e4⟩ := addRTP_ok hr.inv rs id p f
    rw [step, e1] at h; cases h
    obtain ⟨l, u, rfl⟩ := e4 rfl
    exact ⟨rfl, rfl, ⟨_, rfl⟩, fun i c _ r => ⟨reports_congr rfl c r, sends_congr rfl c r⟩⟩

/-- A plain RTP connection is accepted exactly for one reader there, with a number not in use, an even port and
a known codec; it carries that reader. -/
theorem std_accepted {s : St} (hr : Reach s) (rs : List Int) (id port : Int) : ∃ t b, addRTP s rs id port .std = .ok (t, b) ∧
    (b = true ↔ id ∉ s.conns.map Prod.fst ∧ port % 2 = 0 ∧ ∃ r st, rs = [r] ∧ (r, some st) ∈ s.readers ∧ st ≠ .video .other) ∧
    (b = true → ∃ r, rs = [r] ∧ t.conns = s.conns ++ [(id, .rtp [r] [r])]) := by
  have hi := hr.inv
  unfold addRTP
  by_cases h1 : id ∈ s.conns.map Prod.fst
  · rw [if_pos h1]; exact ⟨s, false, rfl, ⟨fun h => (by cases h), fun h => absurd h1 h.1⟩, fun h => (by cases h)⟩
  rw [if_neg h1]
  by_cases h2 : (rs.any fun r => decide (stream s r = none)) = true
  · rw [if_pos h2]
    refine ⟨s, false, rfl, ⟨fun h => (by cases h), ?_⟩, fun h => (by cases h)⟩
    rintro ⟨_, _, r, st, rfl, h, _⟩
    simp [(stream_iff hi).2 h] at h2
  rw [if_neg h2]
  obtain ⟨t, b, e1, _, _, e4, e5⟩ := addOne_ok hi rs id port false h1
  refine ⟨t, b, e1, ?_, fun h => by obtain ⟨r, a, h⟩ := e5 h; exact ⟨r, a, by rw [h]⟩⟩
  rw [e4]
  constructor
  · rintro ⟨r, st, a, b, c, d⟩
    exact ⟨h1, c, r, st, a, b, by rintro rfl; cases d⟩
  · rintro ⟨_, c, r, st, a, b, d⟩
    refine ⟨r, st, a, b, c, ?_⟩
    cases st with
    | video x => cases x <;> first | rfl | exact absurd rfl d
    | audio x => rfl

/-- An UltraGrid connection is accepted exactly for one reader there of H.264 or MP3. -/
theorem ultragrid_accepted {s : St} (hr : Reach s) (rs : List Int) (id port : Int) : ∃ t b, addRTP s rs id port .ultragrid = .ok (t, b) ∧
    (b = true ↔ id ∉ s.conns.map Prod.fst ∧ port % 2 = 0 ∧ ∃ r, rs = [r] ∧ ((r, some (.video .h264)) ∈ s.readers ∨ (r, some (.audio .mp3)) ∈ s.readers)) ∧
    (b = true → ∃ r, rs = [r] ∧ t.conns = s.conns ++ [(id, .rtp [r] [r])]) := by
  have hi := hr.inv
  unfold addRTP
  by_cases h1 : id ∈ s.conns.map Prod.fst
  · rw [if_pos h1]; exact ⟨s, false, rfl, ⟨fun h => (by cases h), fun h => absurd h1 h.1⟩, fun h => (by cases h)⟩
  rw [if_neg h1]
  by_cases h2 : (rs.any fun r => decide (stream s r = none)) = true
  · rw [if_pos h2]
    refine ⟨s, false, rfl, ⟨fun h => (by cases h), ?_⟩, fun h => (by cases h)⟩
    rintro ⟨_, _, r, rfl, h | h⟩ <;> simp [(stream_iff hi).2 h] at h2
  rw [if_neg h2]
  obtain ⟨t, b, e1, _, _, e4, e5⟩ := addOne_ok hi rs id port true h1
  refine ⟨t, b, e1, ?_, fun h => by obtain ⟨r, a, h⟩ := e5 h; exact ⟨r, a, by rw [h]⟩⟩
  rw [e4]
  constructor
  · rintro ⟨r, st, a, b, c, d⟩
    refine ⟨h1, c, r, a, ?_⟩
    cases st with
    | video x => simp only [sinkFor, if_true, decide_eq_true_eq] at d; subst d; exact .inl b
    | audio x => simp only [sinkFor, if_true, decide_eq_true_eq] at d; subst d; exact .inr b
  · rintro ⟨_, c, r, a, b | b⟩
    · exact ⟨r, _, a, b, c, rfl⟩
    · exact ⟨r, _, a, b, c, rfl⟩

/-- An MPEG-TS connection is accepted exactly for one reader the stream can carry, or two of different kinds of
which it can carry the second; it carries those of them it can. -/
theorem mpegts_accepted {s : St} (hr : Reach s) (rs : List Int) (id port : Int) : ∃ t b, addRTP s rs id port .mpegts = .ok (t, b) ∧
    (b = true ↔ id ∉ s.conns.map Prod.fst ∧ port % 2 = 0 ∧ ((∃ r st, rs = [r] ∧ (r, some st) ∈ s.readers ∧ muxable st = true) ∨
        ∃ q r st st', rs = [q, r] ∧ (q, some st) ∈ s.readers ∧ (r, some st') ∈ s.readers ∧ muxable st' = true ∧ sameKind st st' = false)) ∧
    (b = true → ∃ l u, t.conns = s.conns ++ [(id, .rtp l u)] ∧ ∀ x, x ∈ l ↔ x ∈ rs ∧ ∃ st, (x, some st) ∈ s.readers ∧ muxable st = true) := by
  have hi := hr.inv
  unfold addRTP
  by_cases h1 : id ∈ s.conns.map Prod.fst
  · rw [if_pos h1]; exact ⟨s, false, rfl, ⟨fun h => (by cases h), fun h => absurd h1 h.1⟩, fun h => (by cases h)⟩
  rw [if_neg h1]
  by_cases h2 : (rs.any fun r => decide (stream s r = none)) = true
  · rw [if_pos h2]
    refine ⟨s, false, rfl, ⟨fun h => (by cases h), ?_⟩, fun h => (by cases h)⟩
    rintro ⟨_, _, ⟨r, st, rfl, h, _⟩ | ⟨q, r, st, st', rfl, h, h', _⟩⟩
    · simp [(stream_iff hi).2 h] at h2
    · simp [(stream_iff hi).2 h, (stream_iff hi).2 h'] at h2
  rw [if_neg h2]
  obtain ⟨t, b, e1, _, _, e4, e5⟩ := addMpegTs_ok hi rs id port h1 (by simpa using h2)
  refine ⟨t, b, e1, ?_, fun h => by obtain ⟨l, u, a, h⟩ := e5 h; exact ⟨l, u, by rw [a], h⟩⟩
  rw [e4]
  exact ⟨fun h => ⟨h1, h⟩, And.right⟩

/-- An RTSP connection with a session per reader is accepted exactly for different readers there of known
codecs; it reports exactly these. -/
theorem rtsp_accepted {s : St} (hr : Reach s) (rs : List Int) (id : Int) (n : String) (hg : Good s (.addRTSP rs id false n)) :
    ∃ t b, addRTSP s rs id false n = .ok (t, b) ∧
      (b = true ↔ rs ≠ [] ∧ id ∉ s.conns.map Prod.fst ∧ rs.Nodup ∧ ∀ r ∈ rs, ∃ st, (r, some st) ∈ s.readers ∧ st ≠ .video .other) ∧
      (b = true → ∃ c, t.conns = s.conns ++ [(id, c)] ∧ ∀ r, reports t c r ↔ r ∈ rs) := by
  obtain ⟨t, b, e1, _, _, _, _, _, e7, e8⟩ := addRTSP_ok hr.inv rs id false n hg
  refine ⟨t, b, e1, ?_, fun h => ?_⟩
  · rw [e8, addSubs_raw hr.inv]
    constructor
    · rintro ⟨a, b, c, _, d⟩; exact ⟨a, b, c, d⟩
    · rintro ⟨a, b, c, d⟩; exact ⟨a, b, c, by simp [Build.listed], d⟩
  · obtain ⟨k, x, a, b, _, c, _⟩ := e7 h
    refine ⟨_, a, fun r => ?_⟩
    rw [← c]
    constructor
    · rintro ⟨y, hy, h⟩; rw [b] at hy; cases hy; exact h
    · intro h; exact ⟨x, b, h⟩

/-- An RTSP connection with a transport stream is accepted exactly for readers there, at most one video and one
audio, all of codecs the stream can carry; it reports exactly these. -/
theorem rtsp_ts_accepted {s : St} (hr : Reach s) (rs : List Int) (id : Int) (n : String) (hg : Good s (.addRTSP rs id true n)) :
    ∃ t b, addRTSP s rs id true n = .ok (t, b) ∧
      (b = true ↔ rs ≠ [] ∧ id ∉ s.conns.map Prod.fst ∧
        (rs.Pairwise fun q r => q ≠ r ∧ ∀ st st', (q, some st) ∈ s.readers → (r, some st') ∈ s.readers → sameKind st st' = false) ∧
        ∀ r ∈ rs, ∃ st, (r, some st) ∈ s.readers ∧ muxable st = true) ∧
      (b = true → ∃ c, t.conns = s.conns ++ [(id, c)] ∧ ∀ r, reports t c r ↔ r ∈ rs) := by
  obtain ⟨t, b, e1, _, _, _, _, _, e7, e8⟩ := addRTSP_ok hr.inv rs id true n hg
  refine ⟨t, b, e1, ?_, fun h => ?_⟩
  · rw [e8, addSubs_ts hr.inv]
    constructor
    · rintro ⟨a, b, c, d⟩
      refine ⟨a, b, c, fun r h => ?_⟩
      obtain ⟨_, st, h1, h2, _⟩ := d r h
      exact ⟨st, h1, h2⟩
    · rintro ⟨a, b, c, d⟩
      refine ⟨a, b, c, fun r h => ⟨by simp [Build.listed], ?_⟩⟩
      obtain ⟨st, h1, h2⟩ := d r h
      exact ⟨st, h1, h2, by cases st <;> rfl⟩
  · obtain ⟨k, x, a, b, _, c, _⟩ := e7 h
    refine ⟨_, a, fun r => ?_⟩
    rw [← c]
    constructor
    · rintro ⟨y, hy, h⟩; rw [b] at hy; cases hy; exact h
    · intro h; exact ⟨x, b, h⟩

/-- Removing a connection removes exactly that one, and says whether it was there. -/
theorem remove_connection {s : St} (hr : Reach s) (id : Int) : ∃ t b, removeConn s id = .ok (t, b) ∧ t.readers = s.readers ∧ t.sources = s.sources ∧
    (∀ i c, (i, c) ∈ t.conns ↔ (i, c) ∈ s.conns ∧ i ≠ id) ∧ (b = true ↔ ∃ c, (id, c) ∈ s.conns) ∧
    ∀ i c, (i, c) ∈ t.conns → ∀ r, (reports t c r ↔ reports s c r) ∧ (sends t c r ↔ sends s c r) := by
  obtain ⟨t, b, e1, _, e3, e4, e5, e6, e7⟩ := removeConn_ok hr.inv id
  refine ⟨t, b, e1, e3, e4, fun i c => ?_, by rw [e6]; exact mem_keys, fun i c hc r => ?_⟩
  · rw [e5]; simp only [List.mem_filter, decide_eq_true_eq]
  · cases c with
    | rtp _ _ => exact ⟨Iff.rfl, Iff.rfl⟩
    | rtsp k => simp only [reports, sends, e7 i k hc, true_and]

/-- Deleting a reader removes it and exactly the connections that send its data; the others stay as they are.
Its source goes with them; the call reports success only if there was such a connection. -/
theorem delete_reader {s : St} (hr : Reach s) (r : Int) (hg : Good s (.delReader r)) (ha : ∃ st, (r, some st) ∈ s.readers) :
    ∃ t b, delReader s r = .ok (t, b) ∧ (∀ e, e ∈ t.readers ↔ e ∈ s.readers ∧ e.1 ≠ r) ∧
      (∀ i c, (i, c) ∈ t.conns ↔ (i, c) ∈ s.conns ∧ ¬ sends s c r) ∧
      (∀ i c, (i, c) ∈ t.conns → ∀ q, (reports t c q ↔ reports s c q) ∧ (sends t c q ↔ sends s c q)) ∧
      (b = true ↔ ∃ i c, (i, c) ∈ s.conns ∧ sends s c r) ∧
      (∀ e, e ∈ t.sources ↔ e ∈ s.sources ∧ ¬ (b = true ∧ e.1 = r)) := by
  have hi := hr.inv
  have ha : alive s r := ha
  obtain ⟨t, b, e1, _, e3, e4, e5, e6, e7⟩ := delReader_ok hi r hg
  refine ⟨t, b, e1, fun e => ?_, fun i c => ?_, fun i c hc q => ?_, ?_, e7⟩
  · rw [e3]; simp only [List.mem_filter, decide_eq_true_eq]
  · rw [e4]
    refine and_congr_right fun h => not_congr ?_
    rw [hi.same i c h]
    exact ⟨And.right, fun h => ⟨ha, h⟩⟩
  · cases c with
    | rtp _ _ => exact ⟨Iff.rfl, Iff.rfl⟩
    | rtsp k => simp only [reports, sends, e5 i k hc, true_and]
  · rw [e6]
    constructor
    · rintro ⟨_, i, c, hc, h⟩; exact ⟨i, c, hc, (hi.same i c hc r).2 h⟩
    · rintro ⟨i, c, hc, h⟩; exact ⟨ha, i, c, hc, (hi.same i c hc r).1 h⟩

/-- A new reader: refused when its number is taken, otherwise added; connections stay. -/
theorem add_reader {s : St} (r : Int) (st : Stream) : ((addReader s r st).1.conns = s.conns ∧ (addReader s r st).1.sess = s.sess) ∧
    (r ∈ s.readers.map Prod.fst → addReader s r st = (s, false)) ∧
    (r ∉ s.readers.map Prod.fst → (addReader s r st).1.readers = s.readers ++ [(r, if (addReader s r st).2 then some st else none)] ∧
      ((addReader s r st).2 = true ↔ st ≠ .video .other ∨ r ∈ s.sources.map Prod.fst)) := by
  obtain ⟨e1, e2, e3, e4, e5⟩ := config_eq s r st
  unfold addReader
  by_cases hm : r ∈ s.readers.map Prod.fst
  · rw [if_pos hm]; exact ⟨⟨rfl, rfl⟩, fun _ => rfl, fun h => absurd hm h⟩
  · rw [if_neg hm]
    refine ⟨⟨e1, e2⟩, fun h => absurd h hm, fun _ => ⟨by simp only [e5], ?_⟩⟩
    simp only
    unfold config
    split
    · split
      · rename_i h; exact ⟨fun _ => .inr h, fun _ => rfl⟩
      · rename_i h
        refine ⟨fun h => (by cases h), ?_⟩
        rintro (h' | h')
        · exact absurd rfl h'
        · exact absurd h' h
    · rename_i h; exact ⟨fun _ => .inl (by intro h'; exact h h'), fun _ => rfl⟩

/-- What can be seen of the transmitter. -/
structure View where
  readers : List (Int × Option Stream)
  sources : List (Int × Stream)
  conns : List (Int × Conn)
  table : List (String × Nat)
  deriving DecidableEq

/-- The view of a state. -/
def view (s : St) : View := ⟨s.readers, s.sources, s.conns, s.table⟩

/-- Runs requests and collects their results. -/
def run (s : St) : List Op → Outcome (St × List Bool)
  | [] => .ok (s, [])
  | op :: l => (step s op).bind fun x => (run x.1 l).map fun y => (y.1, x.2 :: y.2)

/-- Three readers, an RTSP and an RTP connection; deleting the video reader takes both, and the audio one's
stays. -/
example : ((run .init [.addReader 1 (.video .h264), .addReader 2 (.audio .aac), .addReader 3 (.audio .mp3),
    .addRTSP [1, 2] 10 false "live", .addRTP [1] 11 4000 .std, .addRTP [3] 12 4002 .ultragrid, .delReader 1]).map fun x => (view x.1, x.2)) =
    .ok (⟨[(2, some (.audio .aac)), (3, some (.audio .mp3))], [(2, .audio .aac), (3, .audio .mp3)], [(12, .rtp [3] [3])], []⟩,
      [true, true, true, true, true, true, true]) := by decide +kernel

/-- A reachable state with an RTSP connection, in which the theorems' hypotheses hold. -/
example : ∃ s, Reach s ∧ s.conns = [(10, .rtsp 0)] ∧ (∃ st, (1, some st) ∈ s.readers) ∧ Good s (.delReader 1) ∧ Good s (.addRTSP [1] 11 false "other") :=
  ⟨_, .step (op := .addRTSP [1] 10 false "live") (.step (op := .addReader 1 (.video .h264)) .init (by show (1 : Int) ≠ -1; decide) rfl)
    (by intro i k x h; cases h) rfl, rfl, ⟨.video .h264, by decide +kernel⟩, by show (1, none) ∉ _; decide +kernel, by
      intro i k x h hx
      have h : (i, Conn.rtsp k) ∈ [(10, Conn.rtsp 0)] := h
      simp only [List.mem_singleton, Prod.mk.injEq, Conn.rtsp.injEq] at h
      obtain ⟨_, rfl⟩ := h
      have hx : some (⟨"live", [1], [1]⟩ : Sess) = some x := hx
      cases hx; decide⟩

/-- The requests that lead to the states below. -/
def twoNames : List Op := [.addReader 1 (.video .h264), .addReader 2 (.audio .aac), .addRTSP [1] 10 false "live", .addRTSP [2] 11 false "live"]

/-- Recorded exception: a second RTSP connection of the same name is accepted; the first one's session is gone,
and deleting any reader or removing the first connection then uses freed memory. -/
theorem name_reused : ((run .init twoNames).map fun x => (view x.1, x.2)) =
      .ok (⟨[(1, some (.video .h264)), (2, some (.audio .aac))], [(1, .video .h264), (2, .audio .aac)], [(10, .rtsp 0), (11, .rtsp 1)], [("live", 1)]⟩, [true, true, true, true]) ∧
    ((run .init (twoNames ++ [.removeConn 10])).map fun x => x.2) = .ub ∧ ((run .init (twoNames ++ [.delReader 2])).map fun x => x.2) = .ub := by
  refine ⟨by decide +kernel, by decide +kernel, by decide +kernel⟩

/-- Recorded exception: a refused RTSP request with the name of a connection there takes that one's stream off
the server. -/
theorem refused_unregisters : ((run .init [.addReader 1 (.video .h264), .addRTSP [1] 10 false "live", .addRTSP [7] 11 false "live"]).map fun x => (view x.1, x.2)) =
    .ok (⟨[(1, some (.video .h264))], [(1, .video .h264)], [(10, .rtsp 0)], []⟩, [true, true, false]) := by decide +kernel

/-- Recorded exception: a transport stream asked to carry a video it cannot and an audio is accepted with the
audio alone, in the other order refused. -/
theorem video_left_out : ((run .init [.addReader 1 (.video .vp8), .addReader 2 (.audio .aac), .addRTP [1, 2] 10 4000 .mpegts, .addRTP [2, 1] 11 4002 .mpegts]).map fun x => (x.1.conns, x.2)) =
    .ok ([(10, .rtp [2] [2])], [true, true, true, false]) := by decide +kernel

/-- Recorded exception: deleting a reader no connection uses reports failure and keeps its source; a later
reader of that number with an unsupported codec is then accepted and served from the old source. -/
theorem source_kept : ((run .init [.addReader 1 (.video .h264), .delReader 1, .addReader 1 (.video .other)]).map fun x => (view x.1, x.2)) =
    .ok (⟨[(1, some (.video .other))], [(1, .video .h264)], [], []⟩, [true, false, true]) := by decide +kernel

/-- Recorded exception: a transport stream of a reader numbered -1 does not report it, and deleting the reader
leaves the connection sending from it. -/
theorem minus_one : ((run .init [.addReader (-1) (.video .h264), .addRTP [-1] 10 4000 .mpegts, .delReader (-1)]).map fun x => (x.1.readers, x.1.conns, x.2)) =
    .ok ([], [(10, .rtp [] [-1])], [true, true, false]) := by decide +kernel

/-- Recorded exception: a refused reader leaves an entry behind, and deleting it dereferences null. -/
theorem refused_reader : ((run .init [.addReader 1 (.video .other)]).map fun x => (x.1.readers, x.2)) = .ok ([(1, none)], [false]) ∧
    ((run .init [.addReader 1 (.video .other), .delReader 1]).map fun x => x.2) = .ub := by
  refine ⟨by decide +kernel, by decide +kernel⟩

end Lms.Sink
