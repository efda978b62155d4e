import Verif.Model.Disk
/-!
# Several commands at the same time

Several runs of the program may share a disk, and the operating system decides whose turn it
is.  A run opens and reads its input, byte by byte, makes its whole output from what it has
read, then opens the output, which empties it, and writes, byte by byte, each byte at its
own position in the file (`passthrough.py` 11-34, `anonymize.py` 27-45, `dump.py` 14-24,
`format.py` 7-15).  Nothing is locked.

Simplified: `os.path.isfile` and `open` of the input are one step, since no command removes files.
An archive is read from front to back; `zipfile` moves around in it.
-/
namespace ReqIF

/-- One run: its two paths, and what it is going to do once it has read its input (`none`: there is no such file). -/
structure Process where
  input : Str
  output : Str
  plan : Option ByteArray → Plan

/-- How far a run has got. -/
inductive Stage
  /-- nothing done yet -/
  | ready
  /-- the input is open, these bytes have been read -/
  | reading (got : List UInt8)
  /-- the output has been made -/
  | decided (plan : Plan)
  /-- the output is open, so many bytes have been written, these remain -/
  | writing (ending : Py CommandEnd) (position : Nat) (rest : List UInt8)
  | ended (ending : Py CommandEnd)

/-- Writes one byte at a position of a file.  A gap is filled with zeros. -/
def putByte (l : List UInt8) (position : Nat) (b : UInt8) : List UInt8 :=
  l.take position ++ List.replicate (position - l.length) 0 ++ b :: l.drop (position + 1)

/-- The disk with another content of one place. -/
def Disk.store (d : Disk) (k : Nat) (l : List UInt8) : Disk := fun j => if j = k then some ⟨l.toArray⟩ else d j

/-- The bytes at a place. -/
def Disk.bytes (d : Disk) (k : Nat) : List UInt8 := ((d k).getD ByteArray.empty).data.toList

/-- One step of a run. -/
def Process.turn (place : Str → Nat) (p : Process) (d : Disk) : Stage → Stage × Disk
  | .ready =>
    match d (place p.input) with
    | none => (.decided (p.plan none), d)
    | some _ => (.reading [], d)
  | .reading got =>
    match (d.bytes (place p.input))[got.length]? with
    | some b => (.reading (got ++ [b]), d)
    | none => (.decided (p.plan (some ⟨got.toArray⟩)), d)
  | .decided plan =>
    match plan.write with
    | none => (.ended plan.ending, d)
    | some (_, bytes) => (.writing plan.ending 0 bytes.data.toList, d.store (place p.output) [])
  | .writing ending _ [] => (.ended ending, d)
  | .writing ending n (b :: rest) =>
    (.writing ending (n + 1) rest, d.store (place p.output) (putByte (d.bytes (place p.output)) n b))
  | .ended ending => (.ended ending, d)

/-- All runs and the disk. -/
structure World (ι : Type) where
  stages : ι → Stage
  disk : Disk

/-- It is the turn of run `k`. -/
def World.turn {ι : Type} [DecidableEq ι] (place : Str → Nat) (procs : ι → Process) (w : World ι) (k : ι) : World ι :=
  ⟨fun j => if j = k then ((procs k).turn place w.disk (w.stages k)).1 else w.stages j, ((procs k).turn place w.disk (w.stages k)).2⟩

/-- The runs take their turns as the schedule says. -/
def World.run {ι : Type} [DecidableEq ι] (place : Str → Nat) (procs : ι → Process) (schedule : List ι) (w : World ι) : World ι :=
  schedule.foldl (World.turn place procs) w

/-- Nobody has begun. -/
def World.start {ι : Type} (d : Disk) : World ι := ⟨fun _ => .ready, d⟩

end ReqIF
