import Verif.V4L.Model

/-!
# C45, C58, C59: the capture device
-/

namespace Lms.V4L

/-! ## C45: the state machine -/

/-- Program and operating system agree: one descriptor exactly unless closed, streaming exactly when
capturing, every buffer the program holds of a device in use is counted, never `OPEN` between calls. -/
structure Good (d : Dev) : Prop where
  fds : d.kern.fds = if d.status = .closed then 0 else 1
  streaming : d.kern.streaming = true ↔ d.status = .capture
  rest : d.status ≠ .opened
  maps : d.status ≠ .closed → live d.bufs ≤ d.kern.maps

theorem live_replicate (n : Nat) : live (List.replicate n true) = n := by
  simp [live]

theorem live_append (a b : List Bool) : live (a ++ b) = live a + live b := by simp [live]

theorem live_split (k : Nat) (l : List Bool) : live (l.take k) + live (l.drop k) = live l := by
  rw [← live_append, List.take_append_drop]

theorem live_unmapFirst (k : Nat) (l : List Bool) : live (unmapFirst k l) = live (l.drop k) := by
  unfold unmapFirst
  rw [live_append]
  have : ∀ l : List Bool, live (l.map fun _ => false) = 0 := by
    intro l; induction l with
    | nil => rfl
    | cons a l ih => simpa [live] using ih
  rw [this]; omega

theorem releaseInit_good {k : Nat} {d : Dev} (hg : Good d) (hs : d.status = .init) :
    Good (releaseInit k d).1 ∧ ((releaseInit k d).2 = true ↔ d.bufs.length ≤ k) ∧
    ((releaseInit k d).2 = true → (releaseInit k d).1.status = .closed) ∧
    ((releaseInit k d).2 = false → (releaseInit k d).1.status = .init) := by
  obtain ⟨h1, h2, h3, h4⟩ := hg
  have hl := live_split k d.bufs
  have hm := h4 (by simp [hs])
  rw [hs] at h1 h2
  simp only [reduceCtorEq, if_false] at h1
  have hst : d.kern.streaming = false := by
    cases h : d.kern.streaming with
    | false => rfl
    | true => exact absurd (h2.1 h) (by decide)
  by_cases hk : k < d.bufs.length
  · have hd : (releaseInit k d) = ({ d with
        bufs := unmapFirst k d.bufs
        kern := { d.kern with maps := d.kern.maps - live (d.bufs.take k), stray := d.kern.stray + ((d.bufs.take k).length - live (d.bufs.take k)) } }, false) := by
      simp [releaseInit, uninitDevice, hs, hk]
    rw [hd]
    refine ⟨⟨by simp [hs, h1], by simp [hs, hst], by simp [hs], ?_⟩, by simp; omega, by simp, by simp [hs]⟩
    intro _
    show live (unmapFirst k d.bufs) ≤ d.kern.maps - live (d.bufs.take k)
    rw [live_unmapFirst]; omega
  · have hd : (releaseInit k d) = ({ d with
        bufs := [], fmt := ⟨0, 0, 0, .other⟩, status := .closed
        kern := { d.kern with fds := d.kern.fds - 1, maps := d.kern.maps - live (d.bufs.take k), stray := d.kern.stray + ((d.bufs.take k).length - live (d.bufs.take k)) } }, true) := by
      simp [releaseInit, uninitDevice, closeDevice, hs, hk]
    rw [hd]
    exact ⟨⟨by simp [h1], by simp [hst], by simp, by simp⟩, by simp; omega, by simp, by simp⟩

theorem release_good {a : Answers} {k : Nat} {d : Dev} (hg : Good d) : Good (releaseDevice a k d).1 := by
  cases hs : d.status with
  | closed => simpa [releaseDevice, hs] using hg
  | opened => exact absurd hs hg.rest
  | init => simpa [releaseDevice, hs] using (releaseInit_good hg hs).1
  | capture =>
    cases ha : a.stops with
    | false => simpa [releaseDevice, hs, stopCapturing, ha] using hg
    | true =>
      have hg' : Good { d with status := .init, kern := { d.kern with streaming := false } } :=
        ⟨by simpa [hs] using hg.fds, by simp, by simp, fun _ => hg.maps (by simp [hs])⟩
      simpa [releaseDevice, hs, stopCapturing, ha] using (releaseInit_good (k := k) hg' rfl).1

theorem setDur_ok {fps : Nat} {d d' : Dev} {b : Bool} (h : setDur fps d = .ok (d', b)) :
    b = true ∧ d' = { d with dur := 1000000 / fps } := by
  unfold setDur at h
  split at h
  · cases h
  · cases h; exact ⟨rfl, rfl⟩

theorem Good.withDur {d : Dev} (n : Nat) (hg : Good d) : Good { d with dur := n } :=
  ⟨hg.fds, hg.streaming, hg.rest, hg.maps⟩

theorem configInit_good {a : Answers} {d d' : Dev} {fps : Nat} {b : Bool} (h : configInit a d fps = .ok (d', b))
    (hg : Good d) (hs : d.status = .init) :
    Good d' ∧ (b = true → d'.status = .capture) ∧
    (b = false → d'.status = .closed ∨ (d'.status = .init ∧ a.unmaps2 < d.bufs.length)) := by
  unfold configInit at h
  cases ha : a.starts with
  | true =>
    simp only [startCapturing, hs, ne_eq, not_true_eq_false, if_false, ha, if_true] at h
    obtain ⟨hb, hd⟩ := setDur_ok h
    subst hb hd
    exact ⟨⟨by simpa [hs] using hg.fds, by simp, by simp, fun _ => hg.maps (by simp [hs])⟩, fun _ => rfl, by simp⟩
  | false =>
    simp only [startCapturing, hs, ne_eq, not_true_eq_false, if_false, ha, Bool.false_eq_true, releaseDevice] at h
    obtain ⟨g1, g2, g3, g4⟩ := releaseInit_good (k := a.unmaps2) hg hs
    cases h
    refine ⟨g1, by simp, fun _ => ?_⟩
    cases hr : (releaseInit a.unmaps2 d).2 with
    | true => exact .inl (g3 hr)
    | false =>
      refine .inr ⟨g4 hr, ?_⟩
      rw [hr] at g2
      have := mt g2.2 (by simp)
      omega

/-- `OPEN` is only passed through: the descriptor is held and nothing is mapped or streaming for it. -/
structure Opened (d : Dev) : Prop where
  status : d.status = .opened
  fds : d.kern.fds = 1
  streaming : d.kern.streaming = false

theorem close_good {d : Dev} (ho : Opened d) : Good (closeDevice d) ∧ (closeDevice d).status = .closed := by
  have : closeDevice d = { d with status := .closed, kern := { d.kern with fds := d.kern.fds - 1 } } := by
    simp [closeDevice, ho.status]
  rw [this]
  exact ⟨⟨by simp [ho.fds], by simp [ho.streaming], by simp, by simp⟩, rfl⟩

theorem configOpen_good {a : Answers} {d d' : Dev} {w h fps : Nat} {pix : Fourcc} {b : Bool}
    (hc : configOpen a d w h fps pix = .ok (d', b)) (ho : Opened d) :
    Good d' ∧ (b = true → d'.status = .capture ∧ d'.fmt = a.got (request d.force w h pix) ∧ d'.dur = 1000000 / a.rate fps ∧ 2 ≤ d'.bufs.length ∧ ∀ x ∈ d'.bufs, x = true) ∧
    (b = false → d'.status = .closed ∨ (d'.status = .init ∧ a.starts = false ∧ ∃ n, a.count = some n ∧ a.unmaps2 < n)) := by
  have hfail : ∀ e : Dev, Opened e → (releaseDevice a a.unmaps2 e).1 = closeDevice e := by
    intro e he; simp [releaseDevice, he.status]
  obtain ⟨st, bufs, fm, du, fo, ke⟩ := d
  have hst := ho.status
  simp only at hst
  subst hst
  unfold configOpen initDevice at hc
  simp only [ne_eq, not_true_eq_false, if_false] at hc
  cases hset : a.setup with
  | false =>
    simp only [hset, if_true, Bool.false_eq_true, if_false] at hc
    rw [hfail _ ho] at hc
    cases hc
    exact ⟨(close_good ho).1, by simp, fun _ => .inl (close_good ho).2⟩
  | true =>
    simp only [hset, Bool.true_eq_false, if_false] at hc
    have ho1 : Opened { status := .opened, bufs := bufs, fmt := a.got (request fo w h pix), dur := du, force := fo, kern := ke } := ⟨ho.status, ho.fds, ho.streaming⟩
    cases hcount : a.count with
    | none =>
      simp only [initMmap, hcount, Bool.false_eq_true, if_false] at hc
      rw [hfail _ ho1] at hc
      cases hc
      exact ⟨(close_good ho1).1, by simp, fun _ => .inl (close_good ho1).2⟩
    | some n =>
      simp only [initMmap, hcount] at hc
      by_cases hn : n < 2
      · simp only [hn, if_true, Bool.false_eq_true, if_false] at hc
        rw [hfail _ ho1] at hc
        cases hc
        exact ⟨(close_good ho1).1, by simp, fun _ => .inl (close_good ho1).2⟩
      · simp only [hn, if_false] at hc
        by_cases hm : a.mapped < n
        · simp only [hm, if_true, Bool.false_eq_true, if_false] at hc
          have ho2 : Opened { status := .opened, bufs := List.replicate a.mapped true, fmt := a.got (request fo w h pix), dur := du, force := fo, kern := ⟨ke.fds, ke.streaming, ke.maps + a.mapped, ke.stray⟩ } :=
            ⟨ho.status, ho.fds, ho.streaming⟩
          rw [hfail _ ho2] at hc
          cases hc
          exact ⟨(close_good ho2).1, by simp, fun _ => .inl (close_good ho2).2⟩
        · simp only [hm, if_false, if_true] at hc
          obtain ⟨e, he⟩ : ∃ e : Dev, e = {
            status := .init, bufs := List.replicate n true, fmt := a.got (request fo w h pix), dur := du, force := fo
            kern := ⟨ke.fds, ke.streaming, ke.maps + n, ke.stray⟩ } := ⟨_, rfl⟩
          have hes : e.status = .init := by rw [he]
          have heb : e.bufs = List.replicate n true := by rw [he]
          have hge : Good e := by
            rw [he]
            have hf : ke.fds = 1 := ho.fds
            have hk : ke.streaming = false := ho.streaming
            exact ⟨by simp [hf], by simp [hk], by simp, fun _ => by rw [live_replicate]; exact Nat.le_add_left _ _⟩
          rw [← he] at hc
          obtain ⟨g1, g2, g3⟩ := configInit_good hc hge hes
          refine ⟨g1, fun hb => ⟨g2 hb, ?_⟩, fun hb => ?_⟩
          · cases hst : a.starts with
            | true =>
              simp only [configInit, startCapturing, hes, ne_eq, not_true_eq_false, if_false, hst, if_true] at hc
              obtain ⟨_, hd⟩ := setDur_ok hc
              subst hd
              refine ⟨by simp [he], rfl, ?_, ?_⟩
              · show 2 ≤ e.bufs.length
                rw [heb, List.length_replicate]; omega
              · show ∀ x ∈ e.bufs, x = true
                rw [heb]; intro x hx; exact List.eq_of_mem_replicate hx
            | false =>
              simp only [configInit, startCapturing, hes, ne_eq, not_true_eq_false, if_false, hst, Bool.false_eq_true] at hc
              cases hc; cases hb
          · rcases g3 hb with h1 | ⟨h1, h2⟩
            · exact .inl h1
            · refine .inr ⟨h1, ?_, n, rfl, by rw [heb, List.length_replicate] at h2; exact h2⟩
              cases hst : a.starts with
              | false => rfl
              | true =>
                simp only [configInit, startCapturing, hes, ne_eq, not_true_eq_false, if_false, hst, if_true] at hc
                obtain ⟨hb', _⟩ := setDur_ok hc
                rw [hb] at hb'; cases hb'

/-- The states reached by any operations with any answers. -/
inductive Reach : Dev → Prop where
  | new : Reach Dev.new
  | step {d d' : Dev} {b : Bool} (o : Op × Answers) : Reach d → step d o = .ok (d', b) → Reach d'

theorem configure_good {a : Answers} {d d' : Dev} {w h fps : Nat} {pix : Fourcc} {force b : Bool}
    (hc : configure a d w h fps pix force = .ok (d', b)) (hg : Good d) : Good d' := by
  unfold configure at hc
  have hg0 : Good { d with force := force } := ⟨hg.fds, hg.streaming, hg.rest, hg.maps⟩
  have hst0 : d.status ≠ .capture → d.kern.streaming = false := by
    intro h; cases hk : d.kern.streaming with
    | false => rfl
    | true => exact absurd (hg.streaming.1 hk) h
  cases hs : d.status with
  | opened => exact absurd hs hg.rest
  | closed =>
    simp only [hs, openDevice, ne_eq, not_true_eq_false, if_false] at hc
    cases ho : a.opens with
    | false =>
      simp only [ho, Bool.false_eq_true, if_false] at hc
      cases hc; rw [← hs]; exact hg0
    | true =>
      simp only [ho, if_true] at hc
      refine (configOpen_good hc ⟨rfl, ?_, hst0 (by simp [hs])⟩).1
      have := hg.fds; rw [hs] at this; simp at this
      simp [this]
  | init =>
    simp only [hs] at hc
    rw [← hs] at hc
    exact (configInit_good hc hg0 hs).1
  | capture =>
    simp only [hs, stopCapturing, ne_eq, not_true_eq_false, if_false] at hc
    cases hstop : a.stops with
    | false =>
      simp only [hstop, Bool.false_eq_true, if_false] at hc
      obtain ⟨_, hd⟩ := setDur_ok hc
      subst hd
      simpa [hs] using hg0.withDur (1000000 / fps)
    | true =>
      simp only [hstop, if_true, uninitDevice, ne_eq, not_true_eq_false, if_false] at hc
      have hf := hg.fds; rw [hs] at hf; simp only [reduceCtorEq, if_false] at hf
      by_cases hk : a.unmaps < d.bufs.length
      · simp only [hk, if_true, Bool.false_eq_true, if_false] at hc
        obtain ⟨_, hd⟩ := setDur_ok hc
        subst hd
        refine ⟨by simp [hf], by simp, by simp, fun _ => ?_⟩
        show live (unmapFirst a.unmaps d.bufs) ≤ d.kern.maps - live (d.bufs.take a.unmaps)
        have hl := live_split a.unmaps d.bufs
        have := hg.maps (by simp [hs])
        rw [live_unmapFirst]; omega
      · simp only [hk, if_false, if_true] at hc
        exact (configOpen_good hc ⟨rfl, hf, rfl⟩).1

/-- **C45**: after any operations with any failures the process holds exactly one descriptor of the
device unless it is closed, and then none; the device streams exactly in the capturing state; it is never
left half-way between opening and initialising; and every buffer the filter may read is still counted as
mapped by the system. -/
theorem device_consistent {d : Dev} (h : Reach d) : Good d := by
  induction h with
  | new => exact ⟨rfl, by simp [Dev.new], by simp [Dev.new], by simp [Dev.new]⟩
  | step o _ hs ih =>
    obtain ⟨op, a⟩ := o
    cases op with
    | configure w h fps pix force => exact configure_good hs ih
    | release =>
      have : releaseDevice a a.unmaps _ = _ := Outcome.ok.inj hs
      have hg := release_good (a := a) (k := a.unmaps) ih
      rw [this] at hg
      exact hg

/-- **C45**: a release of a device that stops and unmaps closes it. -/
theorem release_closes {a : Answers} {d : Dev} (h : Reach d) (hs : a.stops = true) (hu : d.bufs.length ≤ a.unmaps) :
    ∃ e, step d (.release, a) = .ok (e, true) ∧ e.status = .closed ∧ e.kern.fds = 0 ∧ e.kern.streaming = false := by
  have hg := device_consistent h
  have hr := release_good (a := a) (k := a.unmaps) hg
  refine ⟨(releaseDevice a a.unmaps d).1, ?_⟩
  have key : (releaseDevice a a.unmaps d).2 = true ∧ (releaseDevice a a.unmaps d).1.status = .closed := by
    cases hst : d.status with
    | opened => exact absurd hst hg.rest
    | closed => simp [releaseDevice, hst]
    | init =>
      obtain ⟨_, g2, g3, _⟩ := releaseInit_good (k := a.unmaps) hg hst
      simp only [releaseDevice, hst]
      exact ⟨g2.2 hu, g3 (g2.2 hu)⟩
    | capture =>
      have hg' : Good { d with status := .init, kern := { d.kern with streaming := false } } :=
        ⟨by simpa [hst] using hg.fds, by simp, by simp, fun _ => hg.maps (by simp [hst])⟩
      obtain ⟨_, g2, g3, _⟩ := releaseInit_good (k := a.unmaps) hg' rfl
      simp only [releaseDevice, hst, stopCapturing, ne_eq, not_true_eq_false, if_false, hs, if_true]
      exact ⟨g2.2 hu, g3 (g2.2 hu)⟩
  have hf := hr.fds
  rw [if_pos key.2] at hf
  refine ⟨?_, key.2, hf, ?_⟩
  · show Outcome.ok (releaseDevice a a.unmaps d) = _
    rw [← key.1]
  · cases hk : (releaseDevice a a.unmaps d).1.kern.streaming with
    | false => rfl
    | true => have := hr.streaming.1 hk; rw [key.2] at this; cases this

/-- **C45**: configuring a closed device that answers successfully captures in the format the driver
settled on, at the rate it settled on, with every buffer mapped; when it reports failure the device is
closed again, unless it could not be started and then not unmapped. -/
theorem configure_closed {a : Answers} {d d' : Dev} {w h fps : Nat} {pix : Fourcc} {force b : Bool} (hr : Reach d)
    (hs : d.status = .closed) (hc : configure a d w h fps pix force = .ok (d', b)) :
    (b = true → d'.status = .capture ∧ d'.fmt = a.got (if force then some (w, h, pix) else none) ∧ d'.dur = 1000000 / a.rate fps ∧
      2 ≤ d'.bufs.length ∧ ∀ x ∈ d'.bufs, x = true) ∧
    (b = false → d'.status = .closed ∨ (d'.status = .init ∧ a.starts = false ∧ ∃ n, a.count = some n ∧ a.unmaps2 < n)) := by
  have hg := device_consistent hr
  have hf := hg.fds; rw [hs] at hf; simp at hf
  unfold configure at hc
  simp only [hs, openDevice, ne_eq, not_true_eq_false, if_false] at hc
  cases ho : a.opens with
  | false =>
    simp only [ho, Bool.false_eq_true, if_false] at hc
    cases hc
    exact ⟨by simp, fun _ => .inl rfl⟩
  | true =>
    simp only [ho, if_true] at hc
    have hst : d.kern.streaming = false := by
      cases hk : d.kern.streaming with
      | false => rfl
      | true => have := hg.streaming.1 hk; rw [hs] at this; cases this
    have := configOpen_good hc ⟨rfl, by simp [hf], hst⟩
    exact ⟨fun hb => by simpa only [request] using this.2.1 hb, this.2.2⟩

/-- **C45**: a writer is only accepted and a picture only read while capturing. -/
theorem capture_only (d : Dev) (r : ReadAns) (f : Pic) :
    (writerConfig d = true ↔ d.status = .capture) ∧ (d.status ≠ .capture → readFrame d r f = .ok none) := by
  refine ⟨by simp [writerConfig], fun h => ?_⟩
  simp [readFrame, h]

/-- Answers of a device without any failure: four buffers, a driver doing as told. -/
def fine : Answers :=
  { opens := true, setup := true, got := fun r => match r with | some (w, h, p) => ⟨w, h, 2 * w, p⟩ | none => ⟨640, 480, 1280, .yuyv⟩
    rate := id, count := some 4, mapped := 4, starts := true, stops := true, unmaps := 4, unmaps2 := 4 }

/-- A case: opened, configured and capturing. -/
def capturing : Dev :=
  { status := .capture, bufs := [true, true, true, true], fmt := ⟨1280, 720, 2560, .yuyv⟩, dur := 33333, force := true
    kern := ⟨1, true, 4, 0⟩ }

theorem capturing_reach : Reach capturing :=
  .step (b := true) (.configure 1280 720 30 .yuyv true, fine) .new (by decide)

example : ∃ e, step capturing (.release, fine) = .ok (e, true) ∧ e.status = .closed ∧ e.kern.fds = 0 ∧ e.kern.streaming = false :=
  release_closes capturing_reach rfl (by decide)

/-- Recorded: configuring a capturing device anew (here 1920x1080 at 25 pictures a second) captures one
picture a second, because the force flag is handed on as the frame rate. -/
theorem reconfigure_wrong_rate :
    step capturing (.configure 1920 1080 25 .yuyv true, fine) =
      .ok ({ capturing with fmt := ⟨1920, 1080, 3840, .yuyv⟩, dur := 1000000 }, true) := by decide

/-- Recorded: so with every successful reconfiguration of a capturing device, whatever rate and format
are asked for: the driver is asked for the default format, forced, and one picture a second. -/
theorem reconfigure_ignores_rate {a : Answers} {d d' : Dev} {w h fps : Nat} {pix : Fourcc} (hr : Reach d)
    (hs : d.status = .capture) (hstop : a.stops = true) (hu : d.bufs.length ≤ a.unmaps)
    (hc : configure a d w h fps pix true = .ok (d', true)) :
    d'.status = .capture ∧ d'.fmt = a.got (some (w, h, .yuyv)) ∧ d'.dur = 1000000 / a.rate 1 := by
  have hg := device_consistent hr
  have hf := hg.fds; rw [hs] at hf; simp at hf
  have hk : ¬ a.unmaps < d.bufs.length := by omega
  unfold configure at hc
  simp only [hs, stopCapturing, ne_eq, not_true_eq_false, if_false, hstop, if_true, uninitDevice, hk] at hc
  obtain ⟨h1, h2, h3, _⟩ := (configOpen_good hc ⟨rfl, hf, rfl⟩).2.1 rfl
  exact ⟨h1, by simpa [request] using h2, h3⟩

example : Reach capturing ∧ capturing.status = .capture ∧ fine.stops = true ∧ capturing.bufs.length ≤ fine.unmaps :=
  ⟨capturing_reach, rfl, rfl, by decide⟩

/-- Recorded: without the force flag the frame rate handed on is zero, and unless the driver replaces it
the filter divides by zero. -/
theorem reconfigure_divides_by_zero :
    step capturing (.configure 1920 1080 25 .yuyv false, fine) = .ub := by decide

/-- Recorded: the same for a first configuration with frame rate zero. -/
theorem zero_rate_divides_by_zero : step Dev.new (.configure 1280 720 0 .yuyv true, fine) = .ub := by decide

/-- Recorded: a reconfiguration whose stop fails reports success and keeps capturing the old format, with
the new frame duration. -/
theorem failed_stop_reports_success :
    step capturing (.configure 640 480 25 .yuyv true, { fine with stops := false }) =
      .ok ({ capturing with dur := 40000 }, true) := by decide

/-- Recorded: one whose unmapping fails reports success but is no longer capturing. -/
theorem failed_unmap_reports_success :
    ∃ d, step capturing (.configure 640 480 25 .yuyv true, { fine with unmaps := 1 }) = .ok (d, true) ∧
      d.status = .init ∧ d.bufs = [false, true, true, true] :=
  ⟨{ capturing with status := .init, bufs := [false, true, true, true], dur := 40000, kern := ⟨1, false, 3, 0⟩ }, by decide, rfl, rfl⟩

/-- Recorded: the next configuration then starts capturing in the old format over the unmapped buffer,
and reading it is undefined. -/
theorem capture_from_unmapped :
    ∃ d, Reach d ∧ d.status = .capture ∧ d.fmt = capturing.fmt ∧
      ∀ src : Bytes, ∀ f : Pic, readFrame d ⟨true, some (0, src), true⟩ f = .ub := by
  refine ⟨{ capturing with bufs := [false, true, true, true], kern := ⟨1, true, 3, 0⟩, dur := 40000 }, ?_, rfl, rfl, ?_⟩
  · exact .step (b := true) (.configure 640 480 25 .yuyv true, fine)
      (.step (b := true) (.configure 640 480 25 .yuyv true, { fine with unmaps := 1 }) capturing_reach (by decide) :
        Reach { capturing with status := .init, bufs := [false, true, true, true], dur := 40000, kern := ⟨1, false, 3, 0⟩ })
      (by decide)
  · intro src f
    simp [readFrame, capturing]

/-- Recorded: a device that cannot map all its buffers is closed, but those mapped stay mapped. -/
theorem failed_map_leaks :
    ∃ d, step Dev.new (.configure 1280 720 30 .yuyv true, { fine with mapped := 3 }) = .ok (d, false) ∧
      d.status = .closed ∧ d.kern.maps = 3 :=
  ⟨{ Dev.new with fmt := ⟨1280, 720, 2560, .yuyv⟩, bufs := [true, true, true], kern := ⟨0, false, 3, 0⟩ }, by decide, rfl, rfl⟩

/-- Recorded: releasing again after a failed unmapping unmaps the first buffers a second time. -/
theorem release_again_unmaps_twice :
    ∃ d e, step capturing (.release, { fine with unmaps := 2 }) = .ok (d, false) ∧
      step d (.release, fine) = .ok (e, true) ∧ e.kern.stray = 2 :=
  ⟨{ capturing with status := .init, bufs := [false, false, true, true], kern := ⟨1, false, 2, 0⟩ },
   { capturing with status := .closed, bufs := [], fmt := ⟨0, 0, 0, .other⟩, kern := ⟨0, false, 0, 2⟩ }, by decide, by decide, rfl⟩

/-! ## C58: the captured picture -/

/-- Bytes of a packed pixel. -/
def packed : Fourcc → Option Nat
  | .yuyv => some 2
  | .rgb24 => some 3
  | _ => none

/-- **C58**: in a packed format and a size of at most 1920x1080, every picture the driver delivers in a
mapped buffer is copied whole, lines and all, to the start of the frame, which gets its size; the rest of
the frame is untouched; it counts as a picture exactly when the buffer could be given back. -/
theorem picture_copied {d : Dev} {i p : Nat} {src : Bytes} {qb : Bool} {f : Pic} (hs : d.status = .capture)
    (hp : packed d.fmt.pix = some p) (hb : d.fmt.bpl = d.fmt.w * p) (hw : d.fmt.w ≤ 1920) (hh : d.fmt.h ≤ 1080)
    (hf : f.data.length = frameRoom d.fmt.pix) (hi : d.bufs[i]? = some true) (hsrc : src.length = d.fmt.w * d.fmt.h * p) :
    ∃ g, readFrame d ⟨true, some (i, src), qb⟩ f = .ok (some g) ∧ g.data.take src.length = src ∧
      g.data.drop src.length = f.data.drop src.length ∧ g.data.length = f.data.length ∧ g.w = d.fmt.w ∧ g.h = d.fmt.h ∧
      g.consumed = qb := by
  have hn : d.fmt.h * d.fmt.bpl = src.length := by
    rw [hb, hsrc, Nat.mul_comm d.fmt.w d.fmt.h, Nat.mul_assoc]
  have hroom : src.length ≤ f.data.length := by
    rw [hsrc, hf]
    have h1 : d.fmt.w * d.fmt.h ≤ 1920 * 1080 := Nat.mul_le_mul hw hh
    cases hpix : d.fmt.pix with
    | yuyv => rw [hpix] at hp; cases hp; exact Nat.mul_le_mul_right 2 h1
    | rgb24 => rw [hpix] at hp; cases hp; exact Nat.mul_le_mul_right 3 h1
    | yuv420 => rw [hpix] at hp; cases hp
    | yuv422p => rw [hpix] at hp; cases hp
    | h264 => rw [hpix] at hp; cases hp
    | mjpeg => rw [hpix] at hp; cases hp
    | other => rw [hpix] at hp; cases hp
  refine ⟨{ data := src ++ f.data.drop src.length, w := d.fmt.w, h := d.fmt.h, consumed := qb }, ?_, ?_, ?_, ?_, rfl, rfl, rfl⟩
  · have hc : ¬ (d.bufs[i]? ≠ some true ∨ src.length < src.length ∨ f.data.length < src.length) := by
      simp only [hi, ne_eq, not_true_eq_false, false_or]; omega
    simp only [readFrame, hs, ne_eq, not_true_eq_false, if_false, Bool.true_eq_false, hn]
    rw [if_neg hc, List.take_length]
  · simp
  · simp
  · simp; omega

/-- A case: a picture of 2x1 pixels. -/
def tiny : Dev := { capturing with fmt := ⟨2, 1, 4, .yuyv⟩ }

theorem tiny_copied : readFrame tiny ⟨true, some (1, [1, 2, 3, 4]), true⟩ ⟨[9, 9, 9, 9, 9, 9], 0, 0, false⟩ =
    .ok (some ⟨[1, 2, 3, 4, 9, 9], 2, 1, true⟩) := by decide

/-- Recorded: any larger picture writes beyond the frame (here, in general, whenever the lines need more
room than the frame has). -/
theorem large_picture_overruns {d : Dev} {i : Nat} {src : Bytes} {qb : Bool} {f : Pic} (hs : d.status = .capture)
    (hf : f.data.length = frameRoom d.fmt.pix) (hn : frameRoom d.fmt.pix < d.fmt.h * d.fmt.bpl) :
    readFrame d ⟨true, some (i, src), qb⟩ f = .ub := by
  have hc : d.bufs[i]? ≠ some true ∨ src.length < d.fmt.h * d.fmt.bpl ∨ f.data.length < d.fmt.h * d.fmt.bpl :=
    .inr (.inr (by omega))
  simp only [readFrame, hs, ne_eq, not_true_eq_false, if_false, Bool.true_eq_false]
  rw [if_pos hc]

/-- A device capturing at 2560x1440, as some cameras do. -/
theorem large_picture_reached :
    ∃ d, Reach d ∧ d.status = .capture ∧ frameRoom d.fmt.pix < d.fmt.h * d.fmt.bpl :=
  ⟨{ capturing with fmt := ⟨2560, 1440, 5120, .yuyv⟩ },
    .step (b := true) (.configure 2560 1440 30 .yuyv true, fine) .new (by decide), rfl, by decide⟩

/-- Recorded: of a planar 4:2:0 picture only the luma is copied (the driver's bytes per line are those of
the luma plane), and of compressed pictures, which have no lines, nothing. -/
theorem planar_loses_chroma :
    readFrame { capturing with fmt := ⟨2, 2, 2, .yuv420⟩ } ⟨true, some (0, [1, 2, 3, 4, 5, 6]), true⟩ ⟨[9, 9, 9, 9, 9, 9], 0, 0, false⟩ =
      .ok (some ⟨[1, 2, 3, 4, 9, 9], 2, 2, true⟩) ∧
    readFrame { capturing with fmt := ⟨2, 2, 0, .h264⟩ } ⟨true, some (0, [1, 2, 3]), true⟩ ⟨[9, 9, 9], 0, 0, false⟩ =
      .ok (some ⟨[9, 9, 9], 2, 2, true⟩) := by decide

/-! ## C59: the frame duration -/

/-- The clock after pictures at intervals `xs`. -/
def clockAfter (c : Clock) (xs : List Int) : Clock := xs.foldl follow c

/-- The running total is that of intervals between `a` and `b`. -/
structure Between (a b f : Int) (c : Clock) : Prop where
  early : c.count ≤ AVG → (c.count - 1 : Nat) * a ≤ c.sum ∧ c.sum ≤ (c.count - 1 : Nat) * b
  late : AVG < c.count → 128 * a ≤ c.sum ∧ c.sum ≤ 128 * b + 127
  dur : c.dur = f ∨ (a ≤ c.dur ∧ c.dur ≤ b)

theorem avg_between {a b f x : Int} {c : Clock} (h : Between a b f c) (ha : 0 ≤ a) (hx : a ≤ x ∧ x ≤ b) :
    Between a b f (avgDur c x).1 ∧ ((avgDur c x).2 = f ∨ (a ≤ (avgDur c x).2 ∧ (avgDur c x).2 ≤ b)) ∧ (avgDur c x).1.dur = c.dur := by
  obtain ⟨h1, h2, h3⟩ := h
  unfold avgDur
  split
  · rename_i hc
    obtain ⟨e1, e2⟩ := h1 hc
    have hsum : (c.count : Nat) * a ≤ (if 0 < c.count then c.sum + x else c.sum) ∧ (if 0 < c.count then c.sum + x else c.sum) ≤ (c.count : Nat) * b := by
      by_cases h0 : 0 < c.count
      · rw [if_pos h0]
        obtain ⟨k, hk⟩ : ∃ k, c.count = k + 1 := ⟨c.count - 1, by omega⟩
        rw [hk, show k + 1 - 1 = k from rfl] at e1 e2
        rw [hk, Int.natCast_add, Int.add_mul, Int.add_mul]
        simp only [Int.natCast_one, Int.one_mul]
        omega
      · rw [if_neg h0]
        have hk : c.count = 0 := by omega
        rw [hk] at e1 e2 ⊢
        simp only [Nat.zero_sub, Int.natCast_zero, Int.zero_mul] at e1 e2 ⊢
        exact ⟨e1, e2⟩
    refine ⟨⟨fun _ => ?_, fun hl => ?_, h3⟩, h3, rfl⟩
    · rw [show (c.count + 1 - 1 : Nat) = c.count from rfl]; exact hsum
    · have hk : c.count = 128 := by simp only [AVG] at hc hl; omega
      rw [hk] at hsum ⊢
      simp only [Int.cast_ofNat_Int] at hsum
      obtain ⟨y, hy⟩ : ∃ y, y = (if 0 < 128 then c.sum + x else c.sum) := ⟨_, rfl⟩
      rw [← hy] at hsum
      show 128 * a ≤ (if 0 < 128 then c.sum + x else c.sum) ∧ (if 0 < 128 then c.sum + x else c.sum) ≤ 128 * b + 127
      rw [← hy]
      omega
  · rename_i hc
    obtain ⟨e1, e2⟩ := h2 (by omega)
    have hs : 0 ≤ c.sum := by omega
    rw [Int.tdiv_eq_ediv_of_nonneg hs]
    have key : 128 * a ≤ c.sum - c.sum / 128 + x ∧ c.sum - c.sum / 128 + x ≤ 128 * b + 127 := by omega
    refine ⟨⟨fun hl => absurd hl hc, fun _ => key, h3⟩, .inr ?_, rfl⟩
    simp only
    rw [Int.tdiv_eq_ediv_of_nonneg (by omega)]
    omega

theorem follow_between {a b f x : Int} {c : Clock} (h : Between a b f c) (ha : 0 ≤ a) (hx : a ≤ x ∧ x ≤ b) :
    Between a b f (follow c x) := by
  obtain ⟨g1, g2, g3⟩ := avg_between h ha hx
  simp only [follow]
  split
  · exact ⟨g1.early, g1.late, g2⟩
  · exact g1

/-- **C59**: whatever the intervals between pictures, the frame duration used is the configured one or lies
between the shortest and the longest interval. -/
theorem duration_between (f a b : Int) (ha : 0 ≤ a) (xs : List Int) (hx : ∀ x ∈ xs, a ≤ x ∧ x ≤ b) :
    (clockAfter ⟨0, 0, f⟩ xs).dur = f ∨ (a ≤ (clockAfter ⟨0, 0, f⟩ xs).dur ∧ (clockAfter ⟨0, 0, f⟩ xs).dur ≤ b) := by
  have : ∀ xs c, Between a b f c → (∀ x ∈ xs, a ≤ x ∧ x ≤ b) → Between a b f (clockAfter c xs) := by
    intro xs
    induction xs with
    | nil => intro c h _; exact h
    | cons x xs ih =>
      intro c h hx
      exact ih (follow c x) (follow_between h ha (hx x (by simp))) (fun y hy => hx y (by simp [hy]))
  exact (this xs ⟨0, 0, f⟩ ⟨fun _ => by simp, fun h => by simp at h, .inl rfl⟩ hx).dur

theorem follow_count (c : Clock) (x : Int) : (follow c x).count = if c.count ≤ AVG then c.count + 1 else c.count := by
  have h1 : (follow c x).count = (avgDur c x).1.count := by
    simp only [follow]
    split <;> rfl
  rw [h1]
  unfold avgDur
  split <;> rfl

theorem after_count (xs : List Int) : ∀ c, c.count ≤ AVG + 1 → (clockAfter c xs).count = min (AVG + 1) (c.count + xs.length) := by
  induction xs with
  | nil => intro c h; simp [clockAfter]; omega
  | cons x xs ih =>
    intro c h
    have hc := follow_count c x
    show (clockAfter (follow c x) xs).count = _
    rw [ih _ (by rw [hc]; split <;> omega), hc, List.length_cons]
    split <;> omega

/-- **C59**: a device that really delivers a picture every `d` microseconds is followed: after the first
130 pictures the frame duration used is within a 128th of itself of `d`, for ever. -/
theorem duration_follows (f d : Int) (hd : 0 ≤ d) (n : Nat) (hn : 129 < n) :
    ((clockAfter ⟨0, 0, f⟩ (List.replicate n d)).dur - d).natAbs ≤ ((clockAfter ⟨0, 0, f⟩ (List.replicate n d)).dur).tdiv 128 ∨
    (clockAfter ⟨0, 0, f⟩ (List.replicate n d)).dur = d := by
  obtain ⟨m, hm⟩ : ∃ m, n = m + 1 := ⟨n - 1, by omega⟩
  have hb : ∀ xs c, Between d d f c → (∀ x ∈ xs, d ≤ x ∧ x ≤ d) → Between d d f (clockAfter c xs) := by
    intro xs
    induction xs with
    | nil => intro c h _; exact h
    | cons x xs ih =>
      intro c h hx
      exact ih (follow c x) (follow_between h hd (hx x (by simp))) (fun y hy => hx y (by simp [hy]))
  have hc := after_count (List.replicate m d) ⟨0, 0, f⟩ (by simp)
  have hB := hb (List.replicate m d) ⟨0, 0, f⟩ ⟨fun _ => by simp, fun h => by simp at h, .inl rfl⟩
    (fun x hx => by rw [List.eq_of_mem_replicate hx]; omega)
  have hsplit : clockAfter ⟨0, 0, f⟩ (List.replicate n d) = follow (clockAfter ⟨0, 0, f⟩ (List.replicate m d)) d := by
    rw [hm, List.replicate_succ', clockAfter, List.foldl_append]; rfl
  rw [hsplit]
  obtain ⟨c, hcd⟩ : ∃ c, c = clockAfter ⟨0, 0, f⟩ (List.replicate m d) := ⟨_, rfl⟩
  rw [← hcd] at hc hB ⊢
  have hcount : c.count = 129 := by
    rw [hc, List.length_replicate]; simp only [AVG]; omega
  have hl := hB.late (by rw [hcount]; decide)
  unfold follow avgDur
  have hno : ¬ c.count ≤ AVG := by rw [hcount]; decide
  rw [if_neg hno]
  simp only
  have hs : 0 ≤ c.sum := by omega
  rw [Int.tdiv_eq_ediv_of_nonneg hs]
  have hq : c.sum / 128 = d := by omega
  rw [hq]
  have hnn : 0 ≤ c.sum - d + d := by omega
  rw [Int.tdiv_eq_ediv_of_nonneg hnn]
  have hq2 : (c.sum - d + d) / 128 = d := by omega
  rw [hq2]
  split
  · right; rfl
  · rename_i hlt
    left
    simp only [TOL] at hlt
    simp only
    have : (64 * 2 : Int) = 128 := rfl
    rw [this] at hlt
    omega

/-- A case: 40 ms configured, 33.333 ms delivered. -/
example : ((clockAfter ⟨0, 0, 40000⟩ (List.replicate 131 33333)).dur - 33333).natAbs ≤ ((clockAfter ⟨0, 0, 40000⟩ (List.replicate 131 33333)).dur).tdiv 128 ∨
    (clockAfter ⟨0, 0, 40000⟩ (List.replicate 131 33333)).dur = 33333 := duration_follows _ _ (by decide) _ (by decide)

/-- **C59**: a round never asks for a delay longer than a frame duration and its 64th; and a round that
takes no time and starts on schedule asks for exactly the duration after its schedule. -/
theorem delay_bounded (now later w dur : Int) (hd : 0 ≤ dur) (hl : now ≤ later) :
    delay now later w dur ≤ dur + dur.tdiv 64 ∧ (w = now → later = now → delay now later w dur = dur) := by
  have h0 : 0 ≤ dur.tdiv 64 := Int.tdiv_nonneg hd (by decide)
  unfold delay wall
  simp only [TOL]
  split <;> refine ⟨by omega, fun h1 h2 => by omega⟩

/-- **C59**: rounds starting within a 64th of the duration of their schedule keep it: the schedule advances by
exactly one duration each. -/
theorem schedule_kept (now w dur : Int) (h : ((now - w).natAbs : Int) ≤ dur.tdiv 64) : wall now w dur = w + dur := by
  unfold wall
  simp only [TOL]
  rw [if_neg (by omega)]

example : delay 1000 1500 900 40000 = 39400 ∧ wall 1000 900 40000 = 40900 := by decide

/-- Recorded: the average is not restarted when the device is configured anew, so the pause between two
captures counts as one long interval: after a pause of an hour a device delivering a picture every 40 ms
is believed to deliver one every 28 seconds. -/
theorem pause_counts :
    (follow ⟨129, 5120000, 40000⟩ 3600000000).dur = 28164687 := by decide

/-- Releasing a device that is only open, or not even that, succeeds and leaves it closed; opening one that is not closed fails and changes
nothing. -/
theorem release_idle (a : Answers) (k : Nat) (d : Dev) (h : d.status = .opened ∨ d.status = .closed) :
    (releaseDevice a k d).2 = true ∧ (releaseDevice a k d).1.status = .closed := by
  unfold releaseDevice
  rcases h with h | h <;> rw [h] <;> simp [closeDevice, h]

theorem open_again (a : Answers) (d : Dev) (h : d.status ≠ .closed) : openDevice a d = (d, false) := by
  unfold openDevice; rw [if_pos h]

end Lms.V4L
