import Verif.AudioRing.Model

/-! Specification of the audio ring: the history of bytes accepted and delivered per channel since
the last synchronisation.  There is no ring, no wrap-around and no machine arithmetic here. -/

namespace Lms.AudioRing

structure Spec where
  channels : Nat
  sampleRate : Nat
  bps : Nat
  chMax : Nat                -- gap (in samples) at which the buffer is reset
  cap : Nat                  -- room per channel in bytes
  bufSamples : Nat           -- size of input/output frames in samples
  acc : List Bytes           -- bytes accepted since the last synchronisation, per channel
  accN : Nat                 -- samples accepted
  delN : Nat                 -- samples delivered
  sync : Int                 -- time of the first sample accepted (if any was)
  synced : Bool
  held : Bool                -- the reader holds the output frame
  outN : Nat                 -- samples per output frame
  outPts : Int
  outBuf : List Bytes        -- buffers of the output frame
  lost : Nat

/-- Tolerance in microseconds: the duration of 64 samples. -/
def Spec.tol (t : Spec) : Int := (64 * 1000000 / t.sampleRate : Nat)

/-- Time of sample number `k` since synchronisation. -/
def Spec.timeOf (t : Spec) (k : Nat) : Int := t.sync + (k * 1000000 / t.sampleRate : Nat)

/-- Room for `n` more samples. -/
def Spec.fits (t : Spec) (n : Nat) : Bool := decide ((t.accN - t.delN + n) * t.bps ≤ t.cap)

/-- Append `n` samples to every channel. -/
def Spec.append (t : Spec) (n : Nat) (planes : List Bytes) : Spec :=
  { t with acc := List.zipWith (fun a p => a ++ p.take (n * t.bps)) t.acc planes
           accN := t.accN + n }

/-- `n` silent (zero) samples. -/
def Spec.silence (t : Spec) (n : Nat) : List Bytes :=
  List.replicate t.channels (List.replicate (n * t.bps) 0)

def Spec.anchor (t : Spec) (pts : Int) : Spec :=
  if t.synced then t else { t with sync := pts, synced := true }

/-- How far the frame's time stamp is ahead of the position where it would be appended. -/
def Spec.deviation (t : Spec) (pts : Int) : Int := pts - (t.anchor pts).timeOf t.accN

/-- Number of samples missing before a frame ahead of its position. -/
def Spec.missing (t : Spec) (pts : Int) : Nat := (t.deviation pts).toNat * t.sampleRate / 1000000

def Spec.reset (t : Spec) : Spec :=
  { t with acc := List.replicate t.channels [], accN := 0, delN := 0, synced := false
           lost := t.lost + 1 }

def Spec.push (t : Spec) (f : Frame) : Spec × Pushed :=
  let t' := t.anchor f.pts
  if t.deviation f.pts < - t.tol then (t, .late)
  else if t.deviation f.pts ≤ t.tol then
    if t'.fits f.samples then (t'.append f.samples f.planes, .stored 0) else (t', .noRoom)
  else
    let k := t.missing f.pts
    if k ≥ t.chMax then (t'.reset, .reset)
    else if !t'.fits k then (t', .noRoom)
    else
      let t1 := t'.append k (t.silence k)
      if t1.fits f.samples then (t1.append f.samples f.planes, .stored k) else (t1, .padOnly k)

def Spec.outFrame (t : Spec) : Int × List Bytes :=
  (t.outPts, t.outBuf.map (List.take (t.outN * t.bps)))

/-- The next `n` samples of every channel. -/
def Spec.next (t : Spec) (n : Nat) : List Bytes :=
  t.acc.map fun a => (a.drop (t.delN * t.bps)).take (n * t.bps)

def Spec.get (t : Spec) : Spec × Option (Int × List Bytes) :=
  if t.held then (t, some t.outFrame)
  else if t.accN - t.delN < t.outN then ({ t with outPts := t.timeOf t.delN }, none)
  else
    ({ t with
        outPts := t.timeOf t.delN
        outBuf := List.zipWith (fun new old => new ++ old.drop (t.outN * t.bps))
          (t.next t.outN) t.outBuf
        delN := t.delN + t.outN
        held := true }, some (t.timeOf t.delN, t.next t.outN))

def Spec.step (t : Spec) : Op → Spec × Out
  | .push f => ((t.push f).1, .pushed (t.push f).2)
  | .get => (t.get.1, .frame t.get.2)
  | .remove => ({ t with held := false }, .unit)
  | .again => (t, .frame (some t.outFrame))
  | .setOut n => ({ t with outN := n }, .unit)
  | .count => (t, .num ((t.accN - t.delN) / t.outN))
  | .free => (t, .num ((t.cap - (t.accN - t.delN) * t.bps) / t.bps))

/-- What the code relies on, operation by operation.
* the input frame has a plane per channel with at least the announced samples, and its size in
  bytes is representable;
* fewer than 2^32 samples were accepted since synchronisation, and the gap before the frame is
  less than 2^32 samples (the indices are 32-bit);
* a gap that is to be filled is at most one frame buffer (100 ms) long;
* the output frame is not larger than its buffer, not empty, when it is counted. -/
def Safe (t : Spec) : Op → Prop
  | .push f => f.planes.length = t.channels ∧ (∀ p ∈ f.planes, f.samples * t.bps ≤ p.length) ∧
      f.samples * t.bps < 4294967296 ∧ t.accN < 4294967296 ∧
      (t.tol < t.deviation f.pts → t.missing f.pts < 4294967296 ∧
        (t.missing f.pts < t.chMax → t.missing f.pts ≤ t.bufSamples))
  | .get => t.delN < 4294967296
  | .setOut n => n ≤ t.bufSamples
  | .count => 0 < t.outN
  | _ => True

instance (t : Spec) (op : Op) : Decidable (Safe t op) := by
  cases op <;> unfold Safe <;> infer_instance

def Spec.init (channels sampleRate maxSamples bps : Nat) (sync0 : Int) : Spec :=
  { channels := channels, sampleRate := sampleRate, bps := bps, chMax := maxSamples
    cap := maxSamples * (sampleRate / 1000) * bps, bufSamples := 100 * sampleRate / 1000
    acc := List.replicate channels [], accN := 0, delN := 0, sync := sync0, synced := false
    held := false, outN := 20000 * sampleRate / 1000000, outPts := 0
    outBuf := List.replicate channels (List.replicate (100 * sampleRate / 1000 * bps) 0)
    lost := 0 }

end Lms.AudioRing
