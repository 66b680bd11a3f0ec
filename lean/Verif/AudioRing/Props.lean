import Verif.AudioRing.Lemmas

/-! C06, C07: the audio ring buffer. -/

namespace Lms.AudioRing

/-- Parameters for which a buffer is created and usable. -/
structure Good (channels sampleRate maxSamples : Nat) (fmt : Fmt) : Prop where
  ch : 1 ≤ channels ∧ channels ≤ 2
  sr : 1000 ≤ sampleRate ∧ sampleRate ≤ 107374
  ms : 0 < maxSamples
  fm : fmt ≠ .other
  sz : maxSamples * (sampleRate / 1000) * fmt.bytes < 4294967296

/-- The default buffer of the decoder and of the mixer (48 kHz, stereo, 32768, 16 bits). -/
example : Good 2 48000 32768 .s16p := ⟨by decide, by decide, by decide, by decide, by decide⟩

/-- **C06/C07.** Every safe history of pushes, reads and releases behaves like the byte-stream
specification. -/
theorem audio_ring_refines_streams {channels sampleRate maxSamples : Nat} {fmt : Fmt}
    (h : Good channels sampleRate maxSamples fmt) (sync0 : Int) (ops : List Op)
    (hs : SafeRun Spec.step Safe (Spec.init channels sampleRate maxSamples fmt.bytes sync0) ops) :
    ∃ s s', ACB.create channels sampleRate maxSamples fmt sync0 = .ok (some s) ∧
      runOps ACB.step s ops =
        .ok (s', (runSpec Spec.step (Spec.init channels sampleRate maxSamples fmt.bytes sync0) ops).2) := by
  obtain ⟨s, h1, h2⟩ := create_rel channels sampleRate maxSamples fmt sync0 h.ch h.sr h.ms h.fm h.sz
  obtain ⟨s', h3, _⟩ := runOps_refines_safe ACB.step Spec.step Safe Rel step_rel ops s _ hs h2
  exact ⟨s, s', h1, h3⟩

/-! ### What an observer of the calls sees -/

/-- Built from the calls and their results only: the bytes accepted and delivered per channel
since the last reset, whether the reader holds the output frame, and the time stamp of the first
frame pushed since the last reset. -/
structure Trace where
  acc : List Bytes
  del : List Bytes
  held : Bool
  sync : Option Int
  deriving DecidableEq, Repr

def Trace.init (channels : Nat) : Trace :=
  ⟨List.replicate channels [], List.replicate channels [], false, none⟩

/-- Zero samples then the samples of the frame, for each channel. -/
def extend (bps : Nat) (acc : List Bytes) (pad : Nat) (n : Nat) (planes : List Bytes) : List Bytes :=
  List.zipWith (fun a p => a ++ List.replicate (pad * bps) 0 ++ p.take (n * bps)) acc planes

def Trace.step (channels bps : Nat) (tr : Trace) : Op → Out → Trace
  | .push f, .pushed p =>
    let tr := { tr with sync := some (tr.sync.getD f.pts) }
    match p with
    | .stored k => { tr with acc := extend bps tr.acc k f.samples f.planes }
    | .padOnly k => { tr with acc := extend bps tr.acc k 0 f.planes }
    | .reset => { tr with acc := List.replicate channels [], del := List.replicate channels [], sync := none }
    | _ => tr
  | .get, .frame (some (_, planes)) =>
    if tr.held then tr else { tr with del := List.zipWith (· ++ ·) tr.del planes, held := true }
  | .remove, _ => { tr with held := false }
  | _, _ => tr

def Trace.run (channels bps : Nat) : Trace → List Op → List Out → Trace
  | tr, op :: ops, o :: os => Trace.run channels bps (tr.step channels bps op o) ops os
  | tr, _, _ => tr

/-- The observer's record agrees with the specification state. -/
structure Agree (tr : Trace) (t : Spec) : Prop where
  acc : tr.acc = t.acc
  del : tr.del = t.acc.map (List.take (t.delN * t.bps))
  held : tr.held = t.held
  sync : tr.sync = if t.synced then some t.sync else none
  len : t.acc.length = t.channels
  sz : ∀ a ∈ t.acc, a.length = t.accN * t.bps
  le : t.delN ≤ t.accN
  un : t.synced = false → t.accN = 0

theorem zip_take_take (bps n : Nat) : ∀ (acc planes : List Bytes), acc.length ≤ planes.length →
    List.zipWith (fun a p => a ++ List.replicate (0 * bps) (0 : UInt8) ++ p.take (n * bps)) acc planes =
      List.zipWith (fun a p => a ++ p.take (n * bps)) acc planes := by
  intro acc
  induction acc with
  | nil => intro _ _; simp
  | cons a acc ih =>
    intro planes hl
    rcases planes with _ | ⟨p, ps⟩
    · simp at hl
    · simp only [List.zipWith_cons_cons]
      rw [ih ps (by simpa using hl)]
      simp

theorem zip_pad (bps k n c : Nat) : ∀ (acc planes : List Bytes), acc.length ≤ planes.length →
    acc.length ≤ c →
    List.zipWith (fun a p => a ++ p.take (n * bps))
      (List.zipWith (fun a p => a ++ p.take (k * bps)) acc
        (List.replicate c (List.replicate (k * bps) (0 : UInt8)))) planes =
    List.zipWith (fun a p => a ++ List.replicate (k * bps) 0 ++ p.take (n * bps)) acc planes := by
  intro acc
  induction acc generalizing c with
  | nil => intro _ _ _; simp
  | cons a acc ih =>
    intro planes hl hc
    rcases planes with _ | ⟨p, ps⟩
    · simp at hl
    · simp at hc hl
      obtain ⟨c, rfl⟩ : ∃ d, c = d + 1 := ⟨c - 1, by omega⟩
      simp only [List.replicate_succ, List.zipWith_cons_cons]
      rw [ih c ps hl (by omega)]
      simp [List.take_replicate]

theorem zip_pad0 (bps k c : Nat) : ∀ (acc planes : List Bytes), acc.length ≤ planes.length →
    acc.length ≤ c →
    List.zipWith (fun a p => a ++ List.replicate (k * bps) (0 : UInt8) ++ p.take (0 * bps)) acc planes =
    List.zipWith (fun a p => a ++ p.take (k * bps)) acc
        (List.replicate c (List.replicate (k * bps) (0 : UInt8))) := by
  intro acc
  induction acc generalizing c with
  | nil => intro _ _ _; simp
  | cons a acc ih =>
    intro planes hl hc
    rcases planes with _ | ⟨p, ps⟩
    · simp at hl
    · simp at hc hl
      obtain ⟨c, rfl⟩ : ∃ d, c = d + 1 := ⟨c - 1, by omega⟩
      simp only [List.replicate_succ, List.zipWith_cons_cons]
      rw [ih c ps hl (by omega)]
      simp [List.take_replicate]

theorem map_take_zipWith (m b : Nat) : ∀ (acc planes : List Bytes), acc.length ≤ planes.length →
    (∀ a ∈ acc, m ≤ a.length) →
    (List.zipWith (fun a p => a ++ p.take b) acc planes).map (List.take m) = acc.map (List.take m) := by
  intro acc
  induction acc with
  | nil => intro _ _ _; simp
  | cons a acc ih =>
    intro planes hl ha
    rcases planes with _ | ⟨p, ps⟩
    · simp at hl
    · simp only [List.zipWith_cons_cons, List.map_cons]
      rw [ih ps (by simpa using hl) (fun x hx => ha x (by simp [hx])),
        List.take_append_of_le_length (ha a (by simp))]

theorem zipWith_mem_len (k m b : Nat) : ∀ (acc planes : List Bytes), (∀ a ∈ acc, a.length = k) →
    (∀ p ∈ planes, b ≤ p.length) → m = k + b →
    ∀ x ∈ List.zipWith (fun a p => a ++ p.take b) acc planes, x.length = m := by
  intro acc
  induction acc with
  | nil => intro _ _ _ _ x hx; simp at hx
  | cons a acc ih =>
    intro planes ha hp hm x hx
    rcases planes with _ | ⟨p, ps⟩
    · simp at hx
    · rcases List.mem_cons.1 hx with rfl | hx
      · have := ha a (by simp); have := hp p (by simp); simp; omega
      · exact ih ps (fun y hy => ha y (by simp [hy])) (fun y hy => hp y (by simp [hy])) hm x hx

/-- The stored part of a push, in observer terms. -/
theorem agree_append {tr : Trace} {t : Spec} (h : Agree tr t) (hs : t.synced = true) (n : Nat)
    (planes : List Bytes) (hpl : t.channels ≤ planes.length) (hps : ∀ p ∈ planes, n * t.bps ≤ p.length)
    : Agree { tr with acc := List.zipWith (fun a p => a ++ p.take (n * t.bps)) t.acc planes }
        (t.append n planes) := by
  have hd : t.delN * t.bps ≤ t.accN * t.bps := Nat.mul_le_mul_right _ h.le
  refine ⟨rfl, ?_, h.held, h.sync, ?_, ?_, ?_, ?_⟩
  · show tr.del = (List.zipWith _ t.acc planes).map (List.take (t.delN * t.bps))
    rw [map_take_zipWith _ _ _ _ (by rw [h.len]; exact hpl) (fun a ha => by rw [h.sz a ha]; exact hd)]
    exact h.del
  · show (List.zipWith _ t.acc planes).length = t.channels
    rw [List.length_zipWith, h.len]; omega
  · exact zipWith_mem_len _ _ _ _ _ h.sz hps (Nat.add_mul ..)
  · show t.delN ≤ t.accN + n; have := h.le; omega
  · intro hc
    have : t.synced = false := hc
    simp [hs] at this

theorem agree_anchor {tr : Trace} {t : Spec} (h : Agree tr t) (pts : Int) :
    Agree { tr with sync := some (tr.sync.getD pts) } (t.anchor pts) := by
  unfold Spec.anchor
  rcases hs : t.synced with _ | _
  · refine ⟨h.acc, h.del, h.held, ?_, h.len, h.sz, h.le, by simp⟩
    simp [h.sync, hs]
  · refine ⟨h.acc, h.del, h.held, ?_, h.len, h.sz, h.le, h.un⟩
    simp [h.sync, hs]

theorem agree_step (tr : Trace) (t : Spec) (op : Op) (hsafe : Safe t op) (h : Agree tr t) :
    Agree (tr.step t.channels t.bps op (t.step op).2) (t.step op).1 := by
  cases op with
  | push f =>
    obtain ⟨hpl, hps, hn, hacc, hgap⟩ := hsafe
    have ha := agree_anchor h f.pts
    have hsy := anchor_synced t f.pts
    have elen : t.acc.length ≤ f.planes.length := by rw [h.len]; omega
    simp only [Spec.step, Trace.step, Spec.push]
    by_cases hl : t.deviation f.pts < -t.tol
    · simp only [hl, if_true]
      rcases hs : t.synced with _ | _
      · exfalso
        have : t.deviation f.pts = 0 := by
          have e : t.anchor f.pts = { t with sync := f.pts, synced := true } := by
            unfold Spec.anchor; rw [hs]; simp
          unfold Spec.deviation Spec.timeOf; rw [e, h.un hs]; simp
        have := tol_nonneg t; omega
      · have : t.anchor f.pts = t := by unfold Spec.anchor; rw [hs]; rfl
        rw [this] at ha; exact ha
    · simp only [hl, if_false]
      have eacc : (t.anchor f.pts).acc = t.acc := by unfold Spec.anchor; split <;> rfl
      by_cases hm : t.deviation f.pts ≤ t.tol
      · simp only [hm, if_true]
        rcases hfit : (t.anchor f.pts).fits f.samples with _ | _
        · simpa using ha
        · simp only [if_true]
          have := agree_append ha hsy f.samples f.planes (by rw [anchor_ch]; omega)
            (by rw [anchor_bps]; exact hps)
          have e : extend t.bps tr.acc 0 f.samples f.planes =
              List.zipWith (fun a p => a ++ p.take (f.samples * (t.anchor f.pts).bps))
                (t.anchor f.pts).acc f.planes := by
            unfold extend
            rw [h.acc, zip_take_take _ _ _ _ elen, anchor_bps, eacc]
          rw [e]; exact this
      · simp only [hm, if_false]
        by_cases hres : t.missing f.pts ≥ t.chMax
        · simp only [hres, if_true]
          refine ⟨?_, ?_, ha.held, rfl, ?_, ?_, ?_, fun _ => rfl⟩
          · simp [Spec.reset, anchor_ch]
          · simp [Spec.reset, anchor_ch]
          · simp [Spec.reset]
          · intro a ha'
            simp only [Spec.reset, List.mem_replicate] at ha'
            rw [ha'.2]; simp [Spec.reset]
          · simp [Spec.reset]
        · simp only [hres, if_false]
          rcases hfit : (t.anchor f.pts).fits (t.missing f.pts) with _ | _
          · simpa using ha
          · simp only [Bool.not_true, Bool.false_eq_true, if_false]
            have h1 := agree_append ha hsy (t.missing f.pts) (t.silence (t.missing f.pts))
              (by rw [anchor_ch]; simp [Spec.silence])
              (by
                intro p hp
                simp only [Spec.silence, List.mem_replicate] at hp
                rw [hp.2, anchor_bps]; simp)
            rcases hfit2 : ((t.anchor f.pts).append (t.missing f.pts) (t.silence (t.missing f.pts))).fits f.samples with _ | _
            · simp only [Bool.false_eq_true, if_false]
              have e : extend t.bps tr.acc (t.missing f.pts) 0 f.planes =
                  ((t.anchor f.pts).append (t.missing f.pts) (t.silence (t.missing f.pts))).acc := by
                unfold extend Spec.append Spec.silence
                simp only [eacc, anchor_bps]
                rw [h.acc, zip_pad0 _ _ t.channels _ _ elen (by rw [h.len]; omega)]
              rw [e]; exact h1
            · simp only [if_true]
              have h2 := agree_append h1 hsy f.samples f.planes
                (by show (t.anchor f.pts).channels ≤ _; rw [anchor_ch]; omega)
                (by show ∀ p ∈ f.planes, f.samples * (t.anchor f.pts).bps ≤ p.length; rw [anchor_bps]; exact hps)
              have e : extend t.bps tr.acc (t.missing f.pts) f.samples f.planes =
                  List.zipWith (fun a p => a ++ p.take (f.samples * (t.anchor f.pts).bps))
                    ((t.anchor f.pts).append (t.missing f.pts) (t.silence (t.missing f.pts))).acc f.planes := by
                unfold extend Spec.append Spec.silence
                simp only [eacc, anchor_bps]
                rw [zip_pad _ _ _ _ _ _ elen (by rw [h.len]; omega), h.acc]
              rw [e]; exact h2
  | get =>
    simp only [Spec.step, Spec.get]
    rcases hheld : t.held with _ | _
    · simp only [Bool.false_eq_true, if_false]
      split <;> rename_i hav
      · simp only [Trace.step]
        exact ⟨h.acc, h.del, by rw [h.held, hheld], h.sync, h.len, h.sz, h.le, h.un⟩
      · simp only [Trace.step, h.held, hheld, Bool.false_eq_true, if_false]
        refine ⟨h.acc, ?_, rfl, h.sync, h.len, h.sz, ?_, h.un⟩
        · show List.zipWith (· ++ ·) tr.del (t.next t.outN) = t.acc.map (List.take ((t.delN + t.outN) * t.bps))
          rw [h.del, Nat.add_mul]
          unfold Spec.next
          generalize t.acc = acc
          induction acc with
          | nil => rfl
          | cons a acc ih => simp only [List.map_cons, List.zipWith_cons_cons, ih, List.take_add]
        · show t.delN + t.outN ≤ t.accN; have := h.le; omega
    · simp only [if_true, Trace.step, h.held, hheld]
      exact ⟨h.acc, h.del, by rw [h.held, hheld], h.sync, h.len, h.sz, h.le, h.un⟩
  | remove => exact ⟨h.acc, h.del, rfl, h.sync, h.len, h.sz, h.le, h.un⟩
  | again => exact ⟨h.acc, h.del, h.held, h.sync, h.len, h.sz, h.le, h.un⟩
  | setOut n => exact ⟨h.acc, h.del, h.held, h.sync, h.len, h.sz, h.le, h.un⟩
  | count => exact ⟨h.acc, h.del, h.held, h.sync, h.len, h.sz, h.le, h.un⟩
  | free => exact ⟨h.acc, h.del, h.held, h.sync, h.len, h.sz, h.le, h.un⟩

theorem step_params (t : Spec) (op : Op) :
    (t.step op).1.channels = t.channels ∧ (t.step op).1.bps = t.bps ∧
    (t.step op).1.sampleRate = t.sampleRate ∧ (t.step op).1.cap = t.cap ∧
    (t.step op).1.chMax = t.chMax := by
  have hanc : ∀ p, t.anchor p = t ∨ t.anchor p = { t with sync := p, synced := true } := by
    intro p; unfold Spec.anchor; split <;> simp
  cases op with
  | push f =>
    simp only [Spec.step, Spec.push]
    rcases hanc f.pts with e | e <;> rw [e] <;>
      (repeat' split) <;> simp [Spec.append, Spec.reset]
  | get => simp only [Spec.step, Spec.get]; (repeat' split) <;> simp
  | _ => simp [Spec.step]

theorem agree_run (ops : List Op) : ∀ (tr : Trace) (t : Spec), Agree tr t →
    SafeRun Spec.step Safe t ops →
    Agree (tr.run t.channels t.bps ops (runSpec Spec.step t ops).2) (runSpec Spec.step t ops).1 := by
  induction ops with
  | nil => intro tr t h _; exact h
  | cons op ops ih =>
    intro tr t h hs
    have := ih _ _ (agree_step tr t op hs.1 h) hs.2
    obtain ⟨e1, e2, _⟩ := step_params t op
    rw [e1, e2] at this
    exact this

theorem agree_init (channels sampleRate maxSamples bps : Nat) (sync0 : Int) :
    Agree (Trace.init channels) (Spec.init channels sampleRate maxSamples bps sync0) := by
  refine ⟨rfl, ?_, rfl, rfl, ?_, ?_, Nat.le_refl _, fun _ => rfl⟩
  · simp [Trace.init, Spec.init]
  · simp [Spec.init]
  · intro a ha; simp only [Spec.init, List.mem_replicate] at ha; rw [ha.2]; simp [Spec.init]

/-- **C06.** Bytes come out exactly as they went in.  For every safe history on a created buffer,
comparing the calls with their results: for each channel the bytes delivered since the last reset
are a prefix of the bytes accepted since then (silence included); all channels have accepted and
delivered the same number of bytes, and what is accepted but not delivered is exactly what the
buffer holds, never more than its size. -/
theorem bytes_delivered_in_order {channels sampleRate maxSamples : Nat} {fmt : Fmt}
    (h : Good channels sampleRate maxSamples fmt) (sync0 : Int) (ops : List Op)
    (hs : SafeRun Spec.step Safe (Spec.init channels sampleRate maxSamples fmt.bytes sync0) ops) :
    ∃ s s' outs, ACB.create channels sampleRate maxSamples fmt sync0 = .ok (some s) ∧
      runOps ACB.step s ops = .ok (s', outs) ∧
      let tr := (Trace.init channels).run channels fmt.bytes ops outs
      tr.acc.length = channels ∧ tr.del.length = channels ∧
      (∀ (c : Nat) (a d : Bytes), tr.acc[c]? = some a → tr.del[c]? = some d →
        d <+: a ∧ a.length = s'.rear ∧ d.length = s'.front ∧
        a.length = d.length + s'.elements) ∧
      s'.elements ≤ maxSamples * (sampleRate / 1000) * fmt.bytes := by
  obtain ⟨s, h1, h2⟩ := create_rel channels sampleRate maxSamples fmt sync0 h.ch h.sr h.ms h.fm h.sz
  obtain ⟨s', h3, h4⟩ := runOps_refines_safe ACB.step Spec.step Safe Rel step_rel ops s _ hs h2
  have ha := agree_run ops _ _ (agree_init channels sampleRate maxSamples fmt.bytes sync0) hs
  have hp : ∀ (ops : List Op) (t : Spec), (runSpec Spec.step t ops).1.channels = t.channels ∧
      (runSpec Spec.step t ops).1.cap = t.cap := by
    intro ops
    induction ops with
    | nil => intro t; exact ⟨rfl, rfl⟩
    | cons op ops ih =>
      intro t
      obtain ⟨e1, _, _, e4, _⟩ := step_params t op
      have := ih (t.step op).1
      simp only [runSpec]
      exact ⟨this.1.trans e1, this.2.trans e4⟩
  obtain ⟨hpc, hpcap⟩ := hp ops (Spec.init channels sampleRate maxSamples fmt.bytes sync0)
  refine ⟨s, s', _, h1, h3, ?_⟩
  generalize hT : (runSpec Spec.step (Spec.init channels sampleRate maxSamples fmt.bytes sync0) ops).1 = T at *
  have ech : (Spec.init channels sampleRate maxSamples fmt.bytes sync0).channels = channels := rfl
  have ebp : (Spec.init channels sampleRate maxSamples fmt.bytes sync0).bps = fmt.bytes := rfl
  rw [ech, ebp] at ha
  intro tr
  have ha' : Agree tr T := ha
  have hsub : (T.accN - T.delN) * T.bps = T.accN * T.bps - T.delN * T.bps := Nat.sub_mul ..
  have hle : T.delN * T.bps ≤ T.accN * T.bps := Nat.mul_le_mul_right _ ha'.le
  refine ⟨?_, ?_, ?_, ?_⟩
  · rw [ha'.acc, ha'.len, hpc]; rfl
  · rw [ha'.del, List.length_map, ha'.len, hpc]; rfl
  · intro c a d hca hcd
    rw [ha'.acc] at hca
    rw [ha'.del, List.getElem?_map, hca] at hcd
    simp at hcd
    subst hcd
    have hsz := ha'.sz a (List.mem_of_getElem? hca)
    refine ⟨List.take_prefix _ _, ?_, ?_, ?_⟩
    · rw [hsz, h4.rear]
    · rw [h4.front]; simp; omega
    · rw [h4.el]; simp; omega
  · rw [h4.el]
    have := h4.fit
    rw [hpcap] at this
    exact this

/-- **C07.** Time stamps.  After any safe history, if the reader has released the previous frame and
now gets a new one, its time stamp is the time stamp of the first frame pushed since the last reset
plus the duration of all samples delivered since then. -/
theorem output_time_is_sync_plus_duration {channels sampleRate maxSamples : Nat} {fmt : Fmt}
    (h : Good channels sampleRate maxSamples fmt) (sync0 : Int) (ops : List Op)
    (hs : SafeRun Spec.step Safe (Spec.init channels sampleRate maxSamples fmt.bytes sync0) (ops ++ [.get]))
    (s : ACB) (hc : ACB.create channels sampleRate maxSamples fmt sync0 = .ok (some s))
    (s' : ACB) (outs : List Out) (ts : Int) (planes : List Bytes)
    (hrun : runOps ACB.step s (ops ++ [.get]) = .ok (s', outs ++ [.frame (some (ts, planes))]))
    (hlen : outs.length = ops.length)
    (hfree : ((Trace.init channels).run channels fmt.bytes ops outs).held = false)
    (hout : 0 < s'.outN) :
    ∃ sync, ((Trace.init channels).run channels fmt.bytes ops outs).sync = some sync ∧
      ∀ (c : Nat) (d : Bytes), ((Trace.init channels).run channels fmt.bytes ops outs).del[c]? = some d →
        ts = sync + (d.length / fmt.bytes * 1000000 / sampleRate : Nat) := by
  obtain ⟨s0, h1, h2⟩ := create_rel channels sampleRate maxSamples fmt sync0 h.ch h.sr h.ms h.fm h.sz
  rw [hc] at h1; cases h1
  have split : ∀ (ops : List Op) (t : Spec) (x : Op), SafeRun Spec.step Safe t (ops ++ [x]) →
      SafeRun Spec.step Safe t ops ∧ Safe (runSpec Spec.step t ops).1 x := by
    intro ops
    induction ops with
    | nil => intro t x hx; exact ⟨trivial, hx.1⟩
    | cons op ops ih => intro t x hx; have := ih _ x hx.2; exact ⟨⟨hx.1, this.1⟩, this.2⟩
  obtain ⟨hs1, hs2⟩ := split ops _ _ hs
  obtain ⟨s1, h3, h4⟩ := runOps_refines_safe ACB.step Spec.step Safe Rel step_rel ops s _ hs1 h2
  have ha := agree_run ops _ _ (agree_init channels sampleRate maxSamples fmt.bytes sync0) hs1
  obtain ⟨s2, h5, h6⟩ := step_rel s1 _ .get hs2 h4
  have hp : ∀ (ops : List Op) (t : Spec), (runSpec Spec.step t ops).1.bps = t.bps ∧
      (runSpec Spec.step t ops).1.sampleRate = t.sampleRate := by
    intro ops
    induction ops with
    | nil => intro t; exact ⟨rfl, rfl⟩
    | cons op ops ih =>
      intro t
      obtain ⟨_, e2, e3, _⟩ := step_params t op
      have := ih (t.step op).1
      simp only [runSpec]
      exact ⟨this.1.trans e2, this.2.trans e3⟩
  obtain ⟨hpb, hps⟩ := hp ops (Spec.init channels sampleRate maxSamples fmt.bytes sync0)
  rw [runOps_append, h3] at hrun
  simp only [Outcome.bind_ok, runOps, h5] at hrun
  simp only [Outcome.ok.injEq, Prod.mk.injEq] at hrun
  obtain ⟨rfl, hrun⟩ := hrun
  have hl2 : ∀ (ops : List Op) (t : Spec), (runSpec Spec.step t ops).2.length = ops.length := by
    intro ops
    induction ops with
    | nil => intro t; rfl
    | cons op ops ih => intro t; simp [runSpec, ih]
  have := List.append_inj hrun ((hl2 ..).trans hlen.symm)
  obtain ⟨e1, e2⟩ := this
  rw [← e1] at hfree ⊢
  generalize hT : (runSpec Spec.step (Spec.init channels sampleRate maxSamples fmt.bytes sync0) ops).1 = T at *
  have ech : (Spec.init channels sampleRate maxSamples fmt.bytes sync0).channels = channels := rfl
  have ebp : (Spec.init channels sampleRate maxSamples fmt.bytes sync0).bps = fmt.bytes := rfl
  rw [ech, ebp] at ha
  have hheld : T.held = false := by rw [← ha.held]; exact hfree
  simp only [Spec.step, Spec.get, hheld, Bool.false_eq_true, if_false] at e2
  split at e2 <;> rename_i hav
  · simp at e2
  · simp at e2
    obtain ⟨rfl, _⟩ := e2
    have hout' : 0 < T.outN := by
      have e : (T.step .get).1.outN = T.outN := by
        simp only [Spec.step, Spec.get]; (repeat' split) <;> rfl
      have := h6.outN
      rw [e] at this
      rw [this] at hout; exact hout
    have hsy : T.synced = true := by
      rcases hsy : T.synced with _ | _
      · have := ha.un hsy; omega
      · rfl
    refine ⟨T.sync, by rw [ha.sync, hsy]; rfl, ?_⟩
    intro c d hd
    rw [ha.del, List.getElem?_map] at hd
    rcases hca : T.acc[c]? with _ | a
    · rw [hca] at hd; simp at hd
    · rw [hca] at hd
      simp at hd
      subst hd
      have hsz := ha.sz a (List.mem_of_getElem? hca)
      have hle : T.delN * T.bps ≤ T.accN * T.bps := Nat.mul_le_mul_right _ ha.le
      have hb : fmt.bytes = T.bps := by rw [hpb]; rfl
      have hb0 : 0 < T.bps := h4.bps0
      unfold Spec.timeOf
      have hr : T.sampleRate = sampleRate := by rw [hps]; rfl
      rw [List.length_take, hsz, Nat.min_eq_left hle, hb, Nat.mul_div_cancel _ hb0, hr]

/-! ### Decisions taken on a push -/

/-- A state reached by a safe history, with the observer's record of it. -/
def Reach (channels sampleRate maxSamples : Nat) (fmt : Fmt) (s : ACB) (tr : Trace) : Prop :=
  Good channels sampleRate maxSamples fmt ∧
  ∃ sync0 s0 ops outs, ACB.create channels sampleRate maxSamples fmt sync0 = .ok (some s0) ∧
    SafeRun Spec.step Safe (Spec.init channels sampleRate maxSamples fmt.bytes sync0) ops ∧
    runOps ACB.step s0 ops = .ok (s, outs) ∧
    tr = (Trace.init channels).run channels fmt.bytes ops outs

theorem run_params (ops : List Op) : ∀ (t : Spec), 
    (runSpec Spec.step t ops).1.channels = t.channels ∧ (runSpec Spec.step t ops).1.bps = t.bps ∧
    (runSpec Spec.step t ops).1.sampleRate = t.sampleRate ∧ (runSpec Spec.step t ops).1.cap = t.cap ∧
    (runSpec Spec.step t ops).1.chMax = t.chMax ∧
    (runSpec Spec.step t ops).1.bufSamples = t.bufSamples := by
  have hb : ∀ (t : Spec) (op : Op), (t.step op).1.bufSamples = t.bufSamples := by
    intro t op
    have hanc : ∀ p, t.anchor p = t ∨ t.anchor p = { t with sync := p, synced := true } := by
      intro p; unfold Spec.anchor; split <;> simp
    cases op with
    | push f =>
      simp only [Spec.step, Spec.push]
      rcases hanc f.pts with e | e <;> rw [e] <;> (repeat' split) <;> simp [Spec.append, Spec.reset]
    | get => simp only [Spec.step, Spec.get]; (repeat' split) <;> simp
    | _ => simp [Spec.step]
  induction ops with
  | nil => intro t; exact ⟨rfl, rfl, rfl, rfl, rfl, rfl⟩
  | cons op ops ih =>
    intro t
    obtain ⟨e1, e2, e3, e4, e5⟩ := step_params t op
    obtain ⟨i1, i2, i3, i4, i5, i6⟩ := ih (t.step op).1
    simp only [runSpec]
    exact ⟨i1.trans e1, i2.trans e2, i3.trans e3, i4.trans e4, i5.trans e5, i6.trans (hb t op)⟩

theorem reach_rel {channels sampleRate maxSamples : Nat} {fmt : Fmt} {s : ACB} {tr : Trace}
    (h : Reach channels sampleRate maxSamples fmt s tr) :
    ∃ t, Rel s t ∧ Agree tr t ∧ t.channels = channels ∧ t.bps = fmt.bytes ∧
      t.sampleRate = sampleRate ∧ t.cap = maxSamples * (sampleRate / 1000) * fmt.bytes ∧
      t.chMax = maxSamples ∧ t.bufSamples = 100 * sampleRate / 1000 := by
  obtain ⟨hg, sync0, s0, ops, outs, hc, hs, hrun, rfl⟩ := h
  obtain ⟨s1, h1, h2⟩ := create_rel channels sampleRate maxSamples fmt sync0 hg.ch hg.sr hg.ms hg.fm hg.sz
  rw [hc] at h1; cases h1
  obtain ⟨s', h3, h4⟩ := runOps_refines_safe ACB.step Spec.step Safe Rel step_rel ops s0 _ hs h2
  rw [hrun] at h3
  cases h3
  have ha := agree_run ops _ _ (agree_init channels sampleRate maxSamples fmt.bytes sync0) hs
  obtain ⟨i1, i2, i3, i4, i5, i6⟩ := run_params ops (Spec.init channels sampleRate maxSamples fmt.bytes sync0)
  exact ⟨_, h4, ha, i1, i2, i3, i4, i5, i6⟩

/-- Position (in samples since the last reset) at which the next frame would be stored, as seen by
the observer: bytes accepted on channel 0. -/
def Trace.position (tr : Trace) (bps : Nat) : Nat := (tr.acc.head?.map List.length).getD 0 / bps

/-- How far a frame is ahead of that position, in microseconds. -/
def Trace.ahead (tr : Trace) (bps sampleRate : Nat) (pts : Int) : Int :=
  pts - (tr.sync.getD pts + (tr.position bps * 1000000 / sampleRate : Nat))

/-- Missing samples before a frame that is ahead. -/
def Trace.gap (tr : Trace) (bps sampleRate : Nat) (pts : Int) : Nat :=
  (tr.ahead bps sampleRate pts).toNat * sampleRate / 1000000

/-- Tolerance in microseconds. -/
def tolerance (sampleRate : Nat) : Int := (64 * 1000000 / sampleRate : Nat)

theorem agree_ahead {s : ACB} {tr : Trace} {t : Spec} (hr : Rel s t) (ha : Agree tr t)
    (hch : 1 ≤ t.channels) (pts : Int) :
    tr.ahead t.bps t.sampleRate pts = t.deviation pts ∧ tr.position t.bps = t.accN := by
  have hpos : tr.position t.bps = t.accN := by
    unfold Trace.position
    rw [ha.acc]
    have hl := ha.len
    rcases hac : t.acc with _ | ⟨a, as⟩
    · rw [hac] at hl; simp at hl; omega
    · have := ha.sz a (by simp [hac])
      simp [this, Nat.mul_div_cancel _ hr.bps0]
  refine ⟨?_, hpos⟩
  unfold Trace.ahead Spec.deviation Spec.timeOf
  rw [hpos, anchor_sr, ha.sync]
  unfold Spec.anchor
  rcases t.synced <;> simp

/-- What the code relies on when a frame is pushed, in observer terms: a plane per channel with the
announced samples, sizes representable in 32 bits, and gaps to be filled no longer than 100 ms. -/
def FrameOk (channels sampleRate maxSamples bps : Nat) (tr : Trace) (f : Frame) : Prop :=
  f.planes.length = channels ∧ (∀ p ∈ f.planes, f.samples * bps ≤ p.length) ∧
  f.samples * bps < 4294967296 ∧ tr.position bps < 4294967296 ∧
  (tolerance sampleRate < tr.ahead bps sampleRate f.pts → tr.gap bps sampleRate f.pts < 4294967296 ∧
    (tr.gap bps sampleRate f.pts < maxSamples →
      tr.gap bps sampleRate f.pts ≤ 100 * sampleRate / 1000))

/-- **C07.** The decision on every push.  With `ahead` the distance of the frame's time stamp from
the time of the position where it would be stored:
* within the tolerance it is appended as is, or refused when it does not fit;
* late by more than the tolerance it is dropped and the buffer is exactly as before;
* ahead by more, exactly `gap` silent samples precede it;
* a gap of the whole buffer or more empties the buffer and counts a loss. -/
theorem push_decision {channels sampleRate maxSamples : Nat} {fmt : Fmt} {s : ACB} {tr : Trace}
    (h : Reach channels sampleRate maxSamples fmt s tr) (f : Frame)
    (hf : FrameOk channels sampleRate maxSamples fmt.bytes tr f) :
    ∃ s' p, s.addFrame f = .ok (s', p) ∧
      let ahead := tr.ahead fmt.bytes sampleRate f.pts
      let gap := tr.gap fmt.bytes sampleRate f.pts
      let room := maxSamples * (sampleRate / 1000) * fmt.bytes - s.elements
      (ahead < -tolerance sampleRate → p = .late ∧ s' = s) ∧
      (-tolerance sampleRate ≤ ahead → ahead ≤ tolerance sampleRate →
        (f.samples * fmt.bytes ≤ room → p = .stored 0) ∧
        (room < f.samples * fmt.bytes → p = .noRoom)) ∧
      (tolerance sampleRate < ahead → maxSamples ≤ gap →
        p = .reset ∧ s'.elements = 0 ∧ s'.synced = false ∧ s'.lost = s.lost + 1) ∧
      (tolerance sampleRate < ahead → gap < maxSamples →
        (gap * fmt.bytes + f.samples * fmt.bytes ≤ room → p = .stored gap) ∧
        (gap * fmt.bytes ≤ room → room < gap * fmt.bytes + f.samples * fmt.bytes → p = .padOnly gap) ∧
        (room < gap * fmt.bytes → p = .noRoom)) := by
  have hg := h.1
  obtain ⟨t, hr, ha, e1, e2, e3, e4, e5, e6⟩ := reach_rel h
  obtain ⟨had, hpos⟩ := agree_ahead hr ha (by rw [e1]; exact hg.ch.1) f.pts
  have egap : tr.gap t.bps t.sampleRate f.pts = t.missing f.pts := by
    unfold Trace.gap Spec.missing; rw [had]
  have etol : tolerance sampleRate = t.tol := by unfold tolerance Spec.tol; rw [e3]
  rw [e2, e3] at had egap
  rw [e2] at hpos
  have hsafe : Safe t (.push f) := by
    obtain ⟨f1, f2, f3, f4, f5⟩ := hf
    refine ⟨by rw [e1]; exact f1, by rw [e2]; exact f2, by rw [e2]; exact f3, by rw [← hpos]; exact f4, ?_⟩
    rw [etol, had, egap] at f5
    rw [e5, e6]; exact f5
  obtain ⟨s', hs', hr'⟩ := hr.addFrame f hsafe
  refine ⟨s', _, hs', ?_⟩
  simp only [had, egap, etol]
  have hel := hr.el
  have hfit := hr.fit
  have hsubroom : ∀ k, (t.anchor f.pts).fits k = decide (k * fmt.bytes ≤
      maxSamples * (sampleRate / 1000) * fmt.bytes - s.elements) := by
    intro k
    unfold Spec.fits
    have : (t.anchor f.pts).delN = t.delN ∧ (t.anchor f.pts).cap = t.cap := by
      unfold Spec.anchor; split <;> exact ⟨rfl, rfl⟩
    rw [anchor_accN, anchor_bps, this.1, this.2, Nat.add_mul, ← hel, ← e4, e2]
    congr 1
    apply propext
    omega
  refine ⟨?_, ?_, ?_, ?_⟩
  · intro hl
    constructor
    · unfold Spec.push; simp only [hl, if_true]
    · have hsy : t.synced = true := by
        rcases hsy : t.synced with _ | _
        · have := unsynced_dev hr hsy f.pts; have := tol_nonneg t; omega
        · rfl
      unfold ACB.addFrame at hs'
      rw [hr.synced, hsy] at hs'
      simp only [if_true] at hs'
      rw [if_neg (by rw [hr.bps, hr.sr]; have := hr.bps0; have := hr.sr0; omega)] at hs'
      have edev : f.pts - (((u32 (s.rear / s.bps) * 1000000 / s.sampleRate : Nat) : Int) + s.sync)
          = t.deviation f.pts := by
        have : s.rear / s.bps = t.accN := by
          rw [hr.rear, hr.bps]; exact Nat.mul_div_cancel _ hr.bps0
        rw [this, u32_eq hsafe.2.2.2.1, hr.sync, hr.sr]
        unfold Spec.deviation Spec.timeOf
        have : t.anchor f.pts = t := by unfold Spec.anchor; rw [hsy]; rfl
        rw [this]; omega
      rw [edev, hr.thr, if_pos hl] at hs'
      simp at hs'
      exact hs'.1.symm
  · intro h1 h2
    unfold Spec.push
    rw [if_neg (by omega), if_pos h2]
    simp only [hsubroom]
    constructor
    · intro h3; simp [h3]
    · intro h3; simp [Nat.not_le.2 h3]
  · intro h1 h2
    have hp : t.push f = ((t.anchor f.pts).reset, .reset) := by
      unfold Spec.push
      have := tol_nonneg t
      rw [if_neg (by omega), if_neg (by omega)]
      simp only
      rw [if_pos (by omega)]
    rw [hp] at hr' ⊢
    refine ⟨rfl, ?_, hr'.synced, ?_⟩
    · rw [hr'.el]; simp [Spec.reset]
    · rw [hr'.lost, hr.lost]
      have : (t.anchor f.pts).lost = t.lost := by unfold Spec.anchor; split <;> rfl
      simp [Spec.reset, this]
  · intro h1 h2
    have := tol_nonneg t
    have h2' : ¬ t.missing f.pts ≥ t.chMax := by omega
    have hfit2 : ((t.anchor f.pts).append (t.missing f.pts) (t.silence (t.missing f.pts))).fits f.samples =
        decide (t.missing f.pts * fmt.bytes + f.samples * fmt.bytes ≤
          maxSamples * (sampleRate / 1000) * fmt.bytes - s.elements) := by
      have := hsubroom (t.missing f.pts + f.samples)
      rw [← Nat.add_mul, ← this]
      unfold Spec.fits Spec.append
      simp only
      have hd : (t.anchor f.pts).delN ≤ (t.anchor f.pts).accN := (hr.anchor f.pts).le
      have : (t.anchor f.pts).accN + t.missing f.pts - (t.anchor f.pts).delN + f.samples =
        (t.anchor f.pts).accN - (t.anchor f.pts).delN + (t.missing f.pts + f.samples) := by omega
      rw [this]
    unfold Spec.push
    rw [if_neg (by omega), if_neg (by omega)]
    simp only [if_neg h2', hsubroom, hfit2]
    refine ⟨?_, ?_, ?_⟩
    · intro h3
      have h4 : t.missing f.pts * fmt.bytes ≤ maxSamples * (sampleRate / 1000) * fmt.bytes - s.elements := by
        omega
      simp [h3, h4]
    · intro h3 h4; simp [h3, Nat.not_le.2 h4]
    · intro h3; simp [Nat.not_le.2 h3]

/-- **C06.** A push reported as not fitting leaves the stored bytes and the counters untouched. -/
theorem refused_push_changes_nothing (s : ACB) (f : Frame) (s' : ACB)
    (h : s.addFrame f = .ok (s', .noRoom)) :
    s'.data = s.data ∧ s'.rear = s.rear ∧ s'.front = s.front ∧ s'.elements = s.elements ∧
      s'.lost = s.lost ∧ s'.outPlanes = s.outPlanes ∧ s'.fillNew = s.fillNew := by
  have hpb : ∀ (a b : ACB) planes n, a.pushBack planes n = .ok (b, false) → b = a := by
    intro a b planes n hb
    unfold ACB.pushBack at hb
    simp only at hb
    split at hb
    · simp at hb; exact hb.symm
    · split at hb
      · simp at hb
      · rcases hfc : forChannels (copyIn a.maxLen a.rear (u32 (n * a.bps))) a.data planes with x | _ | _ <;>
          rw [hfc] at hb <;> simp at hb
  have hs1 : ∀ s1 : ACB, s1 = (if s.synced then s else { s with sync := f.pts, synced := true }) →
      s1.data = s.data ∧ s1.rear = s.rear ∧ s1.front = s.front ∧ s1.elements = s.elements ∧
      s1.lost = s.lost ∧ s1.outPlanes = s.outPlanes ∧ s1.fillNew = s.fillNew := by
    intro s1 e; subst e; split <;> simp
  unfold ACB.addFrame at h
  generalize hs : (if s.synced then s else { s with sync := f.pts, synced := true }) = s1 at h
  have hs1 := hs1 s1 hs.symm
  simp only at h
  split at h
  · simp at h
  · split at h
    · simp at h
    · split at h
      · split at h
        · simp at h
        · generalize hp1 : s1.pushBack s1.dummy _ = r1 at h
          rcases r1 with ⟨s2, ok1⟩ | _ | _ <;> simp at h
          rcases ok1 with _ | _
          · simp at h; subst h; rw [hpb _ _ _ _ hp1]; exact hs1
          · simp at h
            generalize hp2 : s2.pushBack f.planes f.samples = r2 at h
            rcases r2 with ⟨s3, ok2⟩ | _ | _ <;> simp at h
            rcases ok2 <;> simp at h
      · generalize hp2 : s1.pushBack f.planes f.samples = r2 at h
        rcases r2 with ⟨s3, ok2⟩ | _ | _ <;> simp at h
        rcases ok2 with _ | _
        · simp at h; subst h; rw [hpb _ _ _ _ hp2]; exact hs1
        · simp at h

/-! ### Where the code leaves the safe histories -/

theorem copyIn_short {M rear n : Nat} {d b : Bytes} (hb : b.length < n) : copyIn M rear n d b = .ub := by
  unfold copyIn
  simp only
  split
  · unfold memcpy; rw [if_neg (by omega)]
  · rcases hm : memcpy d (rear % M) b 0 (M - rear % M) with d' | _ | _
    · simp only [Outcome.bind_ok]
      split
      · rfl
      · unfold memcpy; rw [if_neg (by omega)]
    · rfl
    · unfold memcpy at hm; split at hm <;> simp at hm

/-- **C07, finding.** A gap longer than 100 ms but shorter than the reset limit, when there is room
for it, makes the code copy the silence from beyond the end of its 100 ms buffer. -/
theorem gap_over_100ms_reads_out_of_bounds {channels sampleRate maxSamples : Nat} {fmt : Fmt} {s : ACB}
    {tr : Trace} (h : Reach channels sampleRate maxSamples fmt s tr) (f : Frame)
    (hpos : tr.position fmt.bytes < 4294967296)
    (hlate : tolerance sampleRate < tr.ahead fmt.bytes sampleRate f.pts)
    (h1 : 100 * sampleRate / 1000 < tr.gap fmt.bytes sampleRate f.pts)
    (h2 : tr.gap fmt.bytes sampleRate f.pts < maxSamples)
    (h32 : tr.gap fmt.bytes sampleRate f.pts * fmt.bytes < 4294967296)
    (hroom : s.elements + tr.gap fmt.bytes sampleRate f.pts * fmt.bytes
      ≤ maxSamples * (sampleRate / 1000) * fmt.bytes) :
    s.addFrame f = .ub := by
  have hg := h.1
  obtain ⟨t, hr, ha, e1, e2, e3, e4, e5, e6⟩ := reach_rel h
  obtain ⟨had, hp⟩ := agree_ahead hr ha (by rw [e1]; exact hg.ch.1) f.pts
  have egap : tr.gap t.bps t.sampleRate f.pts = t.missing f.pts := by
    unfold Trace.gap Spec.missing; rw [had]
  have etol : tolerance sampleRate = t.tol := by unfold tolerance Spec.tol; rw [e3]
  rw [e2, e3] at had egap
  rw [e2] at hp
  rw [egap] at h1 h2 h32 hroom
  rw [had, etol] at hlate
  rw [hp] at hpos
  have hanc := hr.anchor f.pts
  have hel1 : (if s.synced then s else { s with sync := f.pts, synced := true }).elements = s.elements := by
    split <;> rfl
  unfold ACB.addFrame
  generalize (if s.synced then s else { s with sync := f.pts, synced := true }) = s1 at hanc hel1
  simp only
  have hb0 := hanc.bps0
  have hs0 := hanc.sr0
  rw [if_neg (by rw [hanc.bps, hanc.sr]; omega)]
  have erear : s1.rear / s1.bps = t.accN := by
    rw [hanc.rear, hanc.bps, anchor_accN]; exact Nat.mul_div_cancel _ hb0
  have edev : f.pts - (((u32 (s1.rear / s1.bps) * 1000000 / s1.sampleRate : Nat) : Int) + s1.sync)
      = t.deviation f.pts := by
    rw [erear, u32_eq hpos, hanc.sync, hanc.sr]
    unfold Spec.deviation Spec.timeOf; omega
  have htn := tol_nonneg t
  rw [edev, hanc.thr, anchor_tol, if_neg (by omega), if_pos (by omega)]
  have hfb : 1 ≤ fmt.bytes := by rw [← e2]; exact hr.bps0
  have hm32 : t.missing f.pts < 4294967296 :=
    Nat.lt_of_le_of_lt (Nat.le_mul_of_pos_right _ hfb) h32
  have epad : u32 ((t.deviation f.pts).toNat * s1.sampleRate / 1000000) = t.missing f.pts := by
    rw [hanc.sr, anchor_sr]; exact u32_eq hm32
  have hcapeq : s1.maxLen = maxSamples * (sampleRate / 1000) * fmt.bytes := by
    rw [hanc.cap, ← e4]; unfold Spec.anchor; split <;> rfl
  rw [epad, hanc.chMax, anchor_chMax, e5, if_neg (by omega)]
  have epb : s1.pushBack s1.dummy (t.missing f.pts) = .ub := by
    unfold ACB.pushBack
    have ebp : s1.bps = fmt.bytes := by rw [hanc.bps, anchor_bps, e2]
    simp only [ebp, u32_eq h32, hcapeq, hel1]
    have : 0 < maxSamples * (sampleRate / 1000) * fmt.bytes := by rw [← e4]; exact hr.cap0
    rw [if_neg (by omega), if_neg (by omega)]
    have hdl : s1.data.length = channels := by rw [hanc.dlen, anchor_ch, e1]
    have hc1 := hg.ch.1
    rcases hd : s1.data with _ | ⟨d, ds⟩
    · rw [hd] at hdl; simp at hdl; omega
    · have edum : s1.dummy = List.replicate 2 (List.replicate (100 * sampleRate / 1000 * fmt.bytes) 0) := by
        unfold ACB.dummy; rw [hanc.buf, ebp, anchor_buf, e6]
      rw [edum]
      simp only [List.replicate_succ, forChannels]
      rw [copyIn_short (by
        rw [List.length_replicate]; exact Nat.mul_lt_mul_of_pos_right h1 hfb)]
      rfl
  rw [epb]
  rfl

/-- **C07, finding.** When there is not enough data for a new frame, asking for one still overwrites
the time stamp of the output frame, so the previous frame that is then handed out again carries the
time stamp of the next one. -/
theorem repeated_frame_gets_next_time {channels sampleRate maxSamples : Nat} {fmt : Fmt} {s : ACB}
    {tr : Trace} (h : Reach channels sampleRate maxSamples fmt s tr) (hfree : tr.held = false)
    (hd : s.front / fmt.bytes < 4294967296)
    (hshort : s.elements < s.outN * fmt.bytes) :
    ∃ s', runOps ACB.step s [.get, .again] =
      .ok (s', [.frame none, .frame (some (s.sync + (s.front / fmt.bytes * 1000000 / sampleRate : Nat),
        s.outPlanes.map (List.take (s.outN * fmt.bytes))))]) := by
  obtain ⟨t, hr, ha, e1, e2, e3, e4, e5, e6⟩ := reach_rel h
  have hdel : t.delN < 4294967296 := by
    rw [hr.front, ← e2, Nat.mul_div_cancel _ hr.bps0] at hd; exact hd
  have hsafe : SafeRun Spec.step Safe t [.get, .again] := ⟨hdel, trivial, trivial⟩
  obtain ⟨s', h3, _⟩ := runOps_refines_safe ACB.step Spec.step Safe Rel step_rel _ s t hsafe hr
  refine ⟨s', ?_⟩
  rw [h3]
  have hheld : t.held = false := by rw [← ha.held]; exact hfree
  have hav : t.accN - t.delN < t.outN := by
    rw [hr.el, hr.outN, ← e2] at hshort
    exact Nat.lt_of_mul_lt_mul_right hshort
  simp only [runSpec, Spec.step, Spec.get, hheld, Bool.false_eq_true, if_false, if_pos hav, Spec.outFrame,
    Spec.timeOf]
  rw [hr.front, hr.sync, hr.outBuf, hr.outN, e2, e3, Nat.mul_div_cancel _ (by rw [← e2]; exact hr.bps0)]

/-- **C49 (recorded).** Counting the frames of a ring that has been told to give frames of no samples divides by zero. -/
theorem count_of_empty_frames_is_ub (s : ACB) : runOps ACB.step s [.setOut 0, .count] = .ub := by
  simp [runOps, ACB.step, ACB.setOutputFrameSamples, ACB.getElements, Outcome.bind]

end Lms.AudioRing
