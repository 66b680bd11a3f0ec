import Verif.AudioMixer.Model

/-!
# Specification of the audio mixer

A timeline of samples: every accepted sample is noted with its position in time; what is played at a position is what was noted
for it, mixed in order of arrival.
-/

namespace Lms.AudioMixer

open Lms

/-- One accepted sample. -/
structure Note (α : Type) where
  ch : Nat
  pos : Nat
  sample : α
  gain : α
  master : α

/-- The mix at a position: silence, and the notes for that position added one by one. -/
def heard {α : Type} (A : Alg α) (notes : List (Note α)) (ch p : Nat) : α :=
  (notes.filter fun e => e.ch = ch ∧ e.pos = p).foldl (fun acc e => A.mix e.sample e.gain e.master acc) A.zero

/-- The timeline: its origin, how many frames have been delivered since, the end of what was supplied, and the notes. -/
structure Line (α : Type) where
  sync : Int
  delivered : Nat
  rear : Nat
  notes : List (Note α)

def Line.init {α : Type} : Line α := ⟨-1, 0, 0, []⟩

/-- The next position to be played. -/
def Line.front {α : Type} (c : Cfg) (l : Line α) : Nat := l.delivered * c.out

/-- The notes of a frame placed at `p`. -/
def notesOf {α : Type} (c : Cfg) (p : Nat) (gain master : α) (f : Frame α) : List (Note α) :=
  (List.range c.channels).flatMap fun ch => (List.range f.n).map fun j => ⟨ch, p + j, f.plane ch j, gain, master⟩

/-- What a restart of the timeline leaves behind: notes not yet played return at their position modulo the buffer size. -/
def leftovers {α : Type} (c : Cfg) (front : Nat) (notes : List (Note α)) : List (Note α) :=
  (notes.filter fun e => front ≤ e.pos).map fun e => { e with pos := e.pos % c.cap }

/-- The position of a frame in samples. -/
def place (c : Cfg) (pts sync : Int) : Int := ((pts - sync) * c.rate).tdiv 1000000

/-- Where a frame falls. -/
inductive Fate where
  | noRoom | past | restart | mixed (p : Nat)
  deriving DecidableEq

/-- The origin of the timeline when a frame arrives. -/
def Line.origin {α : Type} (l : Line α) (pts : Int) : Int := if l.sync < 0 then pts else l.sync

def fate {α : Type} (c : Cfg) (l : Line α) (pts : Int) (n : Nat) : Fate :=
  if l.front c + c.cap < l.rear + n then .noRoom
  else
    let P := place c pts (l.origin pts)
    if 0 ≤ P ∧ P < l.front c then .past
    else if P < 0 ∨ l.front c + c.cap < P + n then .restart
    else .mixed P.toNat

/-- A frame arrives on a channel with the given gains. -/
def Line.push {α : Type} (c : Cfg) (l : Line α) (gain master : α) (f : Frame α) : Line α :=
  match fate c l f.pts f.n with
  | .noRoom => l
  | .past => { l with sync := l.origin f.pts }
  | .restart =>
    let l' : Line α := ⟨f.pts, 0, 0, leftovers c (l.front c) l.notes⟩
    if f.fmtOk = false ∧ 0 < f.n ∧ 0 < c.channels then l'
    else { l' with rear := f.n, notes := l'.notes ++ notesOf c 0 gain master f }
  | .mixed p =>
    let l' : Line α := { l with sync := l.origin f.pts }
    if f.fmtOk = false ∧ 0 < f.n ∧ 0 < c.channels then l'
    else { l' with rear := max l.rear (p + f.n), notes := l.notes ++ notesOf c p gain master f }

/-- A frame is taken off the front of the timeline. -/
def Line.extract {α : Type} (A : Alg α) (c : Cfg) (l : Line α) : Option (Out α) × Line α :=
  if l.rear < l.front c + c.thr then (none, l)
  else
    (some ⟨l.sync + (l.delivered * c.out * 1000000 / c.rate : Nat),
      (List.range c.channels).map fun ch => (List.range c.out).map fun j => heard A l.notes ch (l.front c + j)⟩,
     { l with delivered := l.delivered + 1 })

/-- Within range: less than 2^31 samples from the origin (twelve hours at 48 kHz). -/
structure InRange {α : Type} (c : Cfg) (l : Line α) (f : Frame α) : Prop where
  front : l.front c + c.cap < 2 ^ 31
  lo : -(2 ^ 31) < place c f.pts (l.origin f.pts)
  hi : place c f.pts (l.origin f.pts) < 2 ^ 31

end Lms.AudioMixer
