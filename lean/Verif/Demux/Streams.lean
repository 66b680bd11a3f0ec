import Verif.Common.Outcome
import Verif.Names.Props

/-!
# The streams of the demultiplexer as other filters see them (src/modules/headDemuxer/HeadDemuxerLibav.cpp)

Opening a URI describes its streams; connecting a stream makes a queue that keeps a pointer to the description; the filters
behind read the description through that pointer.  Descriptions are numbered in the order they are made; a freed one is `none`.

Simplifications: the sizes of the frames of a queue are the subject of the area `FrameAlloc`; codec data are left out; of the
log messages of `setURI` nothing is modelled (the one at HeadDemuxerLibav.cpp:361 prints the pixel format that was never written,
which is harmless for any value); queues are never taken down here, so that the histories include all that can be seen through them.
-/

namespace Lms.Demux.Streams

open Lms Lms.Names

/-- A stream as libav describes it: HeadDemuxerLibav.cpp:299-328 (`other`: no descriptor or another type).  The sample format is
what `getSampleFormatFromLibav` (HeadDemuxerLibav.cpp:369-380) makes of it. -/
inductive Kind where
  | audio (name : List Char) (rate channels : Nat) (fmt : Option SampleFmt)
  | video (name : String)
  | other
  deriving DecidableEq

/-- src/StreamInfo.hh:33-62.  The pixel format is left out: `new StreamInfo()` (HeadDemuxerLibav.cpp:301) leaves it unwritten
(StreamInfo.hh:119-138) and nothing writes it later. -/
inductive Info where
  | audio (codec : Option ACodec) (rate channels : Nat) (fmt : Option SampleFmt)
  | video (codec : Option VCodec)
  | none
  deriving DecidableEq

/-- HeadDemuxerLibav.cpp:305-328 with `setCodecDefaults`, src/StreamInfo.hh:82-116. -/
def describe : Kind → Info
  | .audio name rate ch fmt => match aCodecOfLibav name with
    | some .g711 => .audio (some .g711) 8000 1 (some .u8)
    | some .opus => .audio (some .opus) rate ch (some .s16)
    | some .aac => .audio (some .aac) rate ch (some .s16)
    | some .mp3 => .audio (some .mp3) rate ch (some .s16)
    | c => .audio c rate ch fmt
  | .video name => .video (vCodecOfLibav name)
  | .other => .none

/-- `setup` of the queue for a description: AVFramedQueue.cpp:144-176 and 202-254; HeadDemuxerLibav.cpp:229-242 for the choice.  For
raw video the pixel format, never written, is read (AVFramedQueue.cpp:159). -/
def setup : Info → Outcome Bool
  | .audio (some .pcmu) _ _ fmt => .ok fmt.isSome
  | .audio (some .pcm) _ _ fmt => .ok fmt.isSome
  | .audio (some _) _ _ _ => .ok true
  | .audio Option.none _ _ _ => .ok false
  | .video (some .raw) => .ub
  | .video (some .mjpeg) => .ok false
  | .video (some _) => .ok true
  | .video Option.none => .ok false
  | .none => .ok false

/-- HeadDemuxerLibav.hh:87 `outputStreamInfos` (stream `i` has description `base + i`, for `i < n`; HeadDemuxerLibav.cpp:298, 362), the
descriptions, the number of the next one, and the descriptions the queues point to (src/FrameQueue.hh:230). -/
structure St where
  base : Nat
  n : Nat
  next : Nat
  heap : Nat → Option Info
  queues : List Nat

/-- HeadDemuxerLibav.cpp:28-45. -/
def init : St := ⟨0, 0, 0, fun _ => Option.none, []⟩

/-- HeadDemuxerLibav.cpp:76-80: the descriptions are deleted and the table cleared. -/
def reset (s : St) : St :=
  { s with base := s.next, n := 0, heap := fun a => if s.base ≤ a ∧ a < s.base + s.n then Option.none else s.heap a }

/-- HeadDemuxerLibav.cpp:270-367 `setURI`; `none`: the URI cannot be opened or its streams not be found. -/
def openUri (s : St) : Option (List Kind) → St × Bool
  | Option.none => (reset s, false)
  | some ks =>
    let r := reset s
    ({ r with n := ks.length, next := r.next + ks.length,
              heap := fun a => if r.next ≤ a ∧ a < r.next + ks.length then (ks[a - r.next]?).map describe else r.heap a }, true)

/-- What is asked: a URI, a connection of stream `w`, the description of queue `q` as a filter behind reads it, the streams. -/
inductive Op where
  | uri (file : Option (List Kind))
  | connect (w : Int)
  | look (q : Nat)
  | report

inductive Ans where
  | done (b : Bool)
  | queue (q : Nat)
  | refused
  | info (i : Info)
  | streams (l : List (Option Info))

/-- One request.  `connect`: HeadDemuxerLibav.cpp:229-242 `allocQueue`, where an unknown id gives a null pointer that is followed, and
src/Filter.cpp:349-353.  `look`: `getStreamInfo()->…` in src/modules/transmitter/SinkManager.cpp:290-293, 337-341, 384-388, 417-421,
479-484, src/modules/dasher/Dasher.cpp:517-537, src/modules/videoDecoder/VideoDecoderLibav.cpp:166-167.  `report`:
HeadDemuxerLibav.cpp:244-268 `doGetState` (a freed description would be followed: `none` in the answer). -/
def step (s : St) : Op → Outcome (St × Ans)
  | .uri f => .ok ((openUri s f).1, .done (openUri s f).2)
  | .connect w =>
    if w < 0 ∨ s.n ≤ w.toNat then .ub
    else match s.heap (s.base + w.toNat) with
      | Option.none => .ub
      | some i => (setup i).map fun b => if b then ({ s with queues := s.queues ++ [s.base + w.toNat] }, .queue s.queues.length) else (s, .refused)
  | .look q => match s.queues[q]? with
    | Option.none => .ok (s, .refused)
    | some a => match s.heap a with
      | Option.none => .ub
      | some i => .ok (s, .info i)
  | .report => .ok (s, .streams ((List.range s.n).map fun i => s.heap (s.base + i)))

/-- Requests one after another (the loop of src/Filter.cpp and src/PipelineManager.cpp around HeadDemuxerLibav.cpp:229-402). -/
def run : St → List Op → Outcome St
  | s, [] => .ok s
  | s, o :: os => (step s o).bind fun x => run x.1 os

/-! ## What is meant -/

/-- The streams of the URI given last, if it could be opened. -/
def current (ops : List Op) : List Kind :=
  ops.foldl (fun c o => match o with
    | .uri f => f.getD []
    | _ => c) []

def opens : Op → Prop
  | .uri _ => True
  | _ => False

/-- The streams that can be passed on, by the names libav gives their codecs. -/
def Carried : Kind → Prop
  | .audio name _ _ fmt => name ∈ ["opus".toList, "aac".toList, "mp3".toList, "pcm_alaw".toList, "pcm_mulaw".toList] ∨
      (((∃ r, name = "pcm_u".toList ++ r) ∨ ∃ r, name = "pcm_s".toList ++ r) ∧ fmt ≠ none)
  | .video name => name ∈ ["h264", "hevc", "vp8"]
  | .other => False

/-! ## Invariant -/

structure Inv (s : St) (cur : List Kind) : Prop where
  len : s.n = cur.length
  room : s.base + s.n = s.next
  heap : ∀ a, s.heap a = if s.base ≤ a then (cur[a - s.base]?).map describe else none
  old : ∀ a ∈ s.queues, a < s.next

theorem inv_init : Inv init [] := ⟨rfl, rfl, fun a => by simp [init], fun a h => by cases h⟩

theorem heap_reset {s : St} {cur : List Kind} (h : Inv s cur) (a : Nat) : (reset s).heap a = none := by
  unfold reset
  simp only
  by_cases hc : s.base ≤ a ∧ a < s.base + s.n
  · rw [if_pos hc]
  · rw [if_neg hc, h.heap]
    by_cases hb : s.base ≤ a
    · rw [if_pos hb, List.getElem?_eq_none (by have := h.len; omega)]; rfl
    · rw [if_neg hb]

theorem inv_uri {s : St} {cur : List Kind} (h : Inv s cur) (f : Option (List Kind)) : Inv (openUri s f).1 (f.getD []) := by
  cases f with
  | none =>
    refine ⟨rfl, rfl, fun a => ?_, h.old⟩
    show (reset s).heap a = _
    rw [heap_reset h]
    simp
  | some ks =>
    refine ⟨rfl, rfl, fun a => ?_, fun a ha => ?_⟩
    · show (if s.next ≤ a ∧ a < s.next + ks.length then (ks[a - s.next]?).map describe else (reset s).heap a) =
        if s.next ≤ a then (ks[a - s.next]?).map describe else none
      rw [heap_reset h]
      by_cases h1 : s.next ≤ a
      · rw [if_pos h1]
        by_cases h2 : a < s.next + ks.length
        · rw [if_pos ⟨h1, h2⟩]
        · rw [if_neg (fun c => h2 c.2), List.getElem?_eq_none (by omega)]; rfl
      · rw [if_neg h1, if_neg (fun c => h1 c.1)]
    · have := h.old a ha
      show a < s.next + ks.length
      omega

def after (cur : List Kind) : Op → List Kind
  | .uri f => f.getD []
  | _ => cur

/-- What a request other than `uri` leaves alone. -/
theorem step_keeps {s s' : St} {o : Op} {x : Ans} (ho : ¬ opens o) (he : step s o = .ok (s', x)) :
    s'.base = s.base ∧ s'.n = s.n ∧ s'.next = s.next ∧ s'.heap = s.heap ∧
    (s'.queues = s.queues ∨ ∃ w, w < s.n ∧ s'.queues = s.queues ++ [s.base + w]) := by
  cases o with
  | uri f => exact absurd trivial ho
  | connect w =>
    unfold step at he
    simp only at he
    by_cases hw : w < 0 ∨ s.n ≤ w.toNat
    · rw [if_pos hw] at he; cases he
    · rw [if_neg hw] at he
      cases hh : s.heap (s.base + w.toNat) with
      | none => rw [hh] at he; cases he
      | some i =>
        rw [hh] at he
        simp only at he
        cases hs : setup i with
        | ub => rw [hs] at he; cases he
        | hang => rw [hs] at he; cases he
        | ok b =>
          rw [hs] at he
          cases b with
          | true => cases he; exact ⟨rfl, rfl, rfl, rfl, .inr ⟨w.toNat, by omega, rfl⟩⟩
          | false => cases he; exact ⟨rfl, rfl, rfl, rfl, .inl rfl⟩
  | look q =>
    unfold step at he
    simp only at he
    split at he
    · cases he; exact ⟨rfl, rfl, rfl, rfl, .inl rfl⟩
    · split at he
      · cases he
      · cases he; exact ⟨rfl, rfl, rfl, rfl, .inl rfl⟩
  | report => cases he; exact ⟨rfl, rfl, rfl, rfl, .inl rfl⟩

theorem inv_step {s s' : St} {cur : List Kind} {o : Op} {x : Ans} (h : Inv s cur) (he : step s o = .ok (s', x)) :
    Inv s' (after cur o) := by
  by_cases ho : opens o
  · cases o with
    | uri f => cases he; exact inv_uri h f
    | connect w => exact ho.elim
    | look q => exact ho.elim
    | report => exact ho.elim
  · obtain ⟨h1, h2, h3, h4, h5⟩ := step_keeps ho he
    have hc : after cur o = cur := by cases o with
      | uri f => exact absurd trivial ho
      | _ => rfl
    rw [hc]
    refine ⟨h2.trans h.len, by rw [h1, h2, h3]; exact h.room, fun a => by rw [h4, h1]; exact h.heap a, fun a ha => ?_⟩
    rw [h3]
    rcases h5 with h5 | ⟨w, hw, h5⟩
    · exact h.old a (h5 ▸ ha)
    · rw [h5] at ha
      rcases List.mem_append.1 ha with ha | ha
      · exact h.old a ha
      · have := h.room
        rw [List.mem_singleton.1 ha]
        omega

theorem inv_run (ops : List Op) : ∀ {s s' : St} {cur : List Kind}, Inv s cur → run s ops = .ok s' → Inv s' (ops.foldl after cur) := by
  induction ops with
  | nil => intro s s' cur h he; cases he; exact h
  | cons o os ih =>
    intro s s' cur h he
    unfold run at he
    cases hs : step s o with
    | ub => rw [hs] at he; cases he
    | hang => rw [hs] at he; cases he
    | ok x => rw [hs] at he; exact ih (inv_step h (x := x.2) hs) he

theorem current_eq (ops : List Op) : current ops = ops.foldl after [] := by
  unfold current
  congr 1

theorem inv_now {ops : List Op} {s : St} (h : run init ops = .ok s) : Inv s (current ops) := by
  rw [current_eq]; exact inv_run ops inv_init h

/-! ## The theorems -/

/-- **C97.** The streams reported are those of the URI given last, in order; none when it could not be opened. -/
theorem reports_current (ops : List Op) (s : St) (h : run init ops = .ok s) :
    step s .report = .ok (s, .streams ((current ops).map fun k => some (describe k))) := by
  have hi := inv_now h
  unfold step
  simp only
  congr 3
  refine List.ext_getElem? fun i => ?_
  rw [List.getElem?_map, List.getElem?_map]
  by_cases hl : i < s.n
  · rw [List.getElem?_range hl]
    have hl' := hi.len ▸ hl
    simp [hi.heap, List.getElem?_eq_getElem hl']
  · rw [List.getElem?_eq_none (by simpa using hl), List.getElem?_eq_none (by have := hi.len; omega)]
    rfl

theorem setup_spec (k : Kind) : (setup (describe k) = .ub ↔ k = .video "rawvideo") ∧ (setup (describe k) = .ok true ↔ Carried k) ∧
    setup (describe k) ≠ .hang := by
  cases k with
  | other => exact ⟨⟨fun h => (by cases h), fun h => (by cases h)⟩, ⟨fun h => (by cases h), fun h => h.elim⟩, fun h => (by cases h)⟩
  | video name =>
    have hv := libav_video_names name
    have hc : Carried (.video name) ↔ name = "h264" ∨ name = "hevc" ∨ name = "vp8" := by simp [Carried]
    rw [hc]
    unfold describe
    simp only
    cases hn : vCodecOfLibav name with
    | none =>
      have hno : ∀ e, ¬ vCodecOfLibav name = some e := by rw [hn]; intro e he; cases he
      have a1 := fun c => hno .h264 ((hv _).2 c)
      have a2 := fun c => hno .h265 ((hv _).2 c)
      have a3 := fun c => hno .vp8 ((hv _).2 c)
      have a4 := fun c => hno .raw ((hv _).2 c)
      simp at a1 a2 a3 a4
      simp [setup, a1, a2, a3, a4]
    | some e =>
      have := (hv e).1 hn
      simp at this
      rcases this with ⟨rfl, rfl⟩ | ⟨rfl, rfl⟩ | ⟨rfl, rfl⟩ | ⟨rfl, rfl⟩ | ⟨rfl, rfl⟩ <;> simp [setup]
  | audio name rate ch fmt =>
    obtain ⟨n1, n2, n3, n4, n5, n6⟩ := libav_audio_names name
    have hc : Carried (.audio name rate ch fmt) ↔ (aCodecOfLibav name = some .opus ∨ aCodecOfLibav name = some .aac ∨
        aCodecOfLibav name = some .mp3 ∨ aCodecOfLibav name = some .g711) ∨
        ((aCodecOfLibav name = some .pcmu ∨ aCodecOfLibav name = some .pcm) ∧ fmt ≠ none) := by
      rw [n1, n2, n3, n4, n5, n6]
      unfold Carried
      simp only [List.mem_cons, List.not_mem_nil, or_false]
    rw [hc]
    unfold describe
    simp only
    cases hn : aCodecOfLibav name with
    | none => simp [setup]
    | some e => cases e <;> cases fmt <;> simp [setup]

/-- **C97.** Which connections succeed: those of streams whose codec can be passed on; asking for a stream that is not there, or for raw
video, is undefined. -/
theorem connect_iff (ops : List Op) (s : St) (h : run init ops = .ok s) (w : Int) :
    (step s (.connect w) = .ub ↔ (w < 0 ∨ (current ops)[w.toNat]? = none ∨ (current ops)[w.toNat]? = some (.video "rawvideo"))) ∧
    ((∃ s' q, step s (.connect w) = .ok (s', .queue q)) ↔ 0 ≤ w ∧ ∃ k, (current ops)[w.toNat]? = some k ∧ Carried k) := by
  have hi := inv_now h
  unfold step
  simp only
  by_cases h1 : w < 0
  · rw [if_pos (.inl h1)]
    exact ⟨⟨fun _ => .inl h1, fun _ => rfl⟩, ⟨fun ⟨_, _, c⟩ => (by cases c), fun ⟨c, _⟩ => absurd c (by omega)⟩⟩
  cases hk : (current ops)[w.toNat]? with
  | none =>
    have : s.n ≤ w.toNat := by rw [hi.len]; exact List.getElem?_eq_none_iff.1 hk
    rw [if_pos (.inr this)]
    exact ⟨⟨fun _ => .inr (.inl rfl), fun _ => rfl⟩, ⟨fun ⟨_, _, c⟩ => (by cases c), fun ⟨_, _, c, _⟩ => (by cases c)⟩⟩
  | some k =>
    have hlt : w.toNat < s.n := by rw [hi.len]; exact (List.getElem?_eq_some_iff.1 hk).1
    have hh : s.heap (s.base + w.toNat) = some (describe k) := by
      rw [hi.heap, if_pos (by omega), Nat.add_sub_cancel_left, hk]; rfl
    rw [if_neg (by omega), hh]
    simp only
    obtain ⟨s1, s2, s3⟩ := setup_spec k
    cases hs : setup (describe k) with
    | hang => exact absurd hs s3
    | ub =>
      have hr := s1.1 hs
      refine ⟨⟨fun _ => .inr (.inr (by rw [hr])), fun _ => rfl⟩, ⟨fun ⟨_, _, c⟩ => (by cases c), fun ⟨_, k', hk', c⟩ => ?_⟩⟩
      cases hk'
      rw [s2.2 c] at hs; cases hs
    | ok b =>
      have hr : k ≠ .video "rawvideo" := fun c => by rw [s1.2 c] at hs; cases hs
      refine ⟨⟨fun c => (by cases c), fun c => ?_⟩, ⟨fun ⟨s', q, c⟩ => ?_, fun ⟨_, k', hk', c⟩ => ?_⟩⟩
      · rcases c with c | c | c
        · exact absurd c h1
        · cases c
        · exact absurd (Option.some.inj c) hr
      · cases b with
        | true => exact ⟨by omega, k, rfl, s2.1 hs⟩
        | false => cases c
      · cases hk'
        rw [s2.2 c] at hs
        cases hs
        exact ⟨_, _, rfl⟩

/-- **C97.** Every other stream is refused, and nothing changes. -/
theorem others_refused (ops : List Op) (s : St) (h : run init ops = .ok s) (w : Nat) (k : Kind) (hk : (current ops)[w]? = some k)
    (hr : k ≠ .video "rawvideo") (hc : ¬ Carried k) : step s (.connect w) = .ok (s, .refused) := by
  have hi := inv_now h
  have hlt : w < s.n := by rw [hi.len]; exact (List.getElem?_eq_some_iff.1 hk).1
  have hh : s.heap (s.base + w) = some (describe k) := by
    rw [hi.heap, if_pos (by omega), Nat.add_sub_cancel_left, hk]; rfl
  obtain ⟨s1, s2, s3⟩ := setup_spec k
  unfold step
  simp only [Int.toNat_natCast]
  rw [if_neg (by omega), hh]
  simp only
  cases hs : setup (describe k) with
  | hang => exact absurd hs s3
  | ub => exact absurd (s1.1 hs) hr
  | ok b =>
    cases b with
    | false => rfl
    | true => exact absurd (s2.1 hs) hc

example : (current [.uri (some [.video "mjpeg", .other])])[0]? = some (.video "mjpeg") ∧ ¬ Carried (.video "mjpeg") := by
  refine ⟨rfl, ?_⟩
  simp [Carried]

/-- Through later requests a queue keeps its description's number; with a URI among them that number is an old one. -/
theorem queue_kept (ops : List Op) : ∀ {s s' : St} {cur : List Kind} {q a : Nat}, Inv s cur → s.queues[q]? = some a → run s ops = .ok s' →
    s'.queues[q]? = some a ∧ ((∀ o ∈ ops, ¬ opens o) → s'.heap = s.heap) ∧ ((a < s.base ∨ ∃ o ∈ ops, opens o) → a < s'.base) := by
  induction ops with
  | nil =>
    intro s s' cur q a h hq he
    cases he
    exact ⟨hq, fun _ => rfl, fun c => c.elim id fun ⟨_, c, _⟩ => (by cases c)⟩
  | cons o os ih =>
    intro s s' cur q a h hq he
    unfold run at he
    cases hs : step s o with
    | ub => rw [hs] at he; cases he
    | hang => rw [hs] at he; cases he
    | ok x =>
      rw [hs] at he
      have hi := inv_step h (x := x.2) hs
      have hold : a < s.next := h.old a (List.mem_of_getElem? hq)
      by_cases ho : opens o
      · have hx : x.1.queues = s.queues ∧ x.1.base = s.next := by
          cases o with
          | uri f => cases hs; cases f <;> exact ⟨rfl, rfl⟩
          | connect w => exact ho.elim
          | look q => exact ho.elim
          | report => exact ho.elim
        obtain ⟨i1, -, i3⟩ := ih hi (by rw [hx.1]; exact hq) he
        exact ⟨i1, fun c => absurd ho (c o List.mem_cons_self), fun _ => i3 (.inl (by rw [hx.2]; exact hold))⟩
      · obtain ⟨h1, -, -, h4, h5⟩ := step_keeps ho (x := x.2) hs
        have hq' : x.1.queues[q]? = some a := by
          rcases h5 with h5 | ⟨w, -, h5⟩
          · rw [h5]; exact hq
          · rw [h5, List.getElem?_append_left (List.getElem?_eq_some_iff.1 hq).1]; exact hq
        obtain ⟨i1, i2, i3⟩ := ih hi hq' he
        refine ⟨i1, fun c => (i2 fun o' ho' => c o' (List.mem_cons_of_mem _ ho')).trans h4, fun c => i3 ?_⟩
        rcases c with c | ⟨o', hm, c⟩
        · exact .inl (h1 ▸ c)
        · rcases List.mem_cons.1 hm with rfl | hm
          · exact absurd c ho
          · exact .inr ⟨o', hm, c⟩

/-- **C97.** Behind a connection the description read is that of the stream connected, until a URI is given; from then on, also when that
URI cannot be opened, reading it is a use of freed memory. -/
theorem description_until_uri (ops later : List Op) (s s1 s2 : St) (w : Int) (q : Nat) (h : run init ops = .ok s)
    (hc : step s (.connect w) = .ok (s1, .queue q)) (hl : run s1 later = .ok s2) :
    ((∀ o ∈ later, ¬ opens o) → ∃ k, (current ops)[w.toNat]? = some k ∧ step s2 (.look q) = .ok (s2, .info (describe k))) ∧
    ((∃ o ∈ later, opens o) → step s2 (.look q) = .ub) := by
  have hi := inv_now h
  obtain ⟨hw, k, hk, -⟩ := (connect_iff ops s h w).2.1 ⟨s1, q, hc⟩
  have hlt : w.toNat < s.n := by rw [hi.len]; exact (List.getElem?_eq_some_iff.1 hk).1
  have hh : s.heap (s.base + w.toNat) = some (describe k) := by
    rw [hi.heap, if_pos (by omega), Nat.add_sub_cancel_left, hk]; rfl
  have hi1 := inv_step hi hc
  have hq : s1.queues[q]? = some (s.base + w.toNat) ∧ s1.heap = s.heap := by
    unfold step at hc
    simp only at hc
    rw [if_neg (by omega), hh] at hc
    simp only at hc
    cases hs : setup (describe k) with
    | ub => rw [hs] at hc; cases hc
    | hang => rw [hs] at hc; cases hc
    | ok b =>
      rw [hs] at hc
      cases b with
      | false => cases hc
      | true => cases hc; exact ⟨by simp, rfl⟩
  obtain ⟨k1, k2, k3⟩ := queue_kept later hi1 hq.1 hl
  constructor
  · intro hno
    refine ⟨k, hk, ?_⟩
    unfold step
    simp only [k1, k2 hno, hq.2, hh]
  · intro ho
    have hb := k3 (.inr ho)
    have hi2 := inv_run later hi1 hl
    have : s2.heap (s.base + w.toNat) = none := by rw [hi2.heap, if_neg (by omega)]
    unfold step
    simp only [k1, this]

/-- **C97.** How sound is described: rate and channels as libav says, except that G.711 is always told as 8000 samples of one channel. -/
theorem sound_described (name : List Char) (rate ch : Nat) (fmt : Option SampleFmt) :
    ∃ c r n f, describe (.audio name rate ch fmt) = .audio c r n f ∧
      ((name = "pcm_alaw".toList ∨ name = "pcm_mulaw".toList) → c = some .g711 ∧ r = 8000 ∧ n = 1 ∧ f = some .u8) ∧
      (¬ (name = "pcm_alaw".toList ∨ name = "pcm_mulaw".toList) → r = rate ∧ n = ch ∧
        (name ∈ ["opus".toList, "aac".toList, "mp3".toList] → f = some .s16) ∧
        (name ∉ ["opus".toList, "aac".toList, "mp3".toList] → f = fmt)) := by
  obtain ⟨n1, -, -, n4, n5, n6⟩ := libav_audio_names name
  have hm : name ∈ ["opus".toList, "aac".toList, "mp3".toList] ↔
      (aCodecOfLibav name = some .opus ∨ aCodecOfLibav name = some .aac ∨ aCodecOfLibav name = some .mp3) := by
    rw [n4, n5, n6]; simp only [List.mem_cons, List.not_mem_nil, or_false]
  rw [← n1, hm]
  unfold describe
  simp only
  cases hn : aCodecOfLibav name with
  | none => exact ⟨_, _, _, _, rfl, by simp⟩
  | some e => cases e <;> exact ⟨_, _, _, _, rfl, by simp⟩

/-- A file with a picture stream, linear sound, subtitles and raw video. -/
def film : List Kind := [.video "h264", .audio "pcm_s16le".toList 44100 2 (some .s16), .other, .video "rawvideo"]

/-- Streams 0 and 1 can be connected, 2 is refused, 3 and 4 are undefined; with the film opened again the first queue's description
is gone. -/
example : (∃ s, run init [.uri (some film), .connect 0, .connect 1, .connect 2] = .ok s ∧ s.queues = [0, 1] ∧
      step s (.connect 3) = .ub ∧ step s (.connect 4) = .ub ∧ (step s (.look 1)).map (fun _ => ()) = .ok ()) ∧
    (∃ s, run init [.uri (some film), .connect 0, .uri none] = .ok s ∧ step s (.look 0) = .ub) ∧
    current [.uri (some film), .connect 0] = film ∧
    describe (.audio "pcm_alaw".toList 44100 2 (some .s16)) = .audio (some .g711) 8000 1 (some .u8) ∧
    describe (.audio "pcm_u8".toList 44100 2 (some .u8)) = .audio (some .pcmu) 44100 2 (some .u8) :=
  ⟨⟨_, rfl, rfl, rfl, rfl, rfl⟩, ⟨_, rfl, rfl⟩, rfl, rfl, rfl⟩

end Lms.Demux.Streams
