import Verif.Model.Loaders
import Verif.Model.Format

/-!
# Model of reading binary catalogues of UniverseMachine, byte by byte
(`simim/siminterface/universemachine.py:242-288`)

This adds the files to the model of `_bin_loader` in `Verif/Model/Loaders.lean`: the record type with its
alignment, and `np.fromfile`.

Simplification: the machine is little-endian, as numpy's native types are on all common machines.
-/

namespace Verif.Load

open Verif.Sim (Err)

/-- The types of the entries of a record. -/
inductive Typ where
  | i8
  | i4
  | f4
  deriving DecidableEq

/-- The size of a number in bytes, which is also its alignment. -/
def Typ.size : Typ → ℕ
  | .i8 => 8
  | .i4 => 4
  | .f4 => 4

/-- An entry of the record type: name, type, and how many numbers. -/
structure FieldType where
  name : Name
  typ : Typ
  count : ℕ := 1

/-- `dtype_raw`, `universemachine.py:268-275`. -/
def dtypeRaw : List FieldType :=
  [⟨"id", .i8, 1⟩, ⟨"descid", .i8, 1⟩, ⟨"upid", .i8, 1⟩,
   ⟨"flags", .i4, 1⟩, ⟨"uparent_dist", .f4, 1⟩,
   ⟨"pos", .f4, 6⟩, ⟨"vmp", .f4, 1⟩, ⟨"lvmp", .f4, 1⟩,
   ⟨"mp", .f4, 1⟩, ⟨"m", .f4, 1⟩, ⟨"v", .f4, 1⟩, ⟨"r", .f4, 1⟩,
   ⟨"rank1", .f4, 1⟩, ⟨"rank2", .f4, 1⟩, ⟨"ra", .f4, 1⟩,
   ⟨"rarank", .f4, 1⟩, ⟨"a_uv", .f4, 1⟩, ⟨"sm", .f4, 1⟩,
   ⟨"icl", .f4, 1⟩, ⟨"sfr", .i4, 1⟩, ⟨"obs_sm", .f4, 1⟩,
   ⟨"obs_sfr", .f4, 1⟩, ⟨"obs_uv", .f4, 1⟩, ⟨"empty", .f4, 1⟩]

/-- The next multiple of the alignment. -/
def alignUp (n a : ℕ) : ℕ := (n + (a - 1)) / a * a

/-- The offsets of the entries with `align=True` (line 276), and where the last one ends. -/
def layout : ℕ → List FieldType → List (FieldType × ℕ) × ℕ
  | off, [] => ([], off)
  | off, f :: fs =>
    let o := alignUp off f.typ.size
    let (l, e) := layout (o + f.count * f.typ.size) fs
    ((f, o) :: l, e)

/-- The entries with their offsets. -/
def slots : List (FieldType × ℕ) := (layout 0 dtypeRaw).1

/-- `dtype_raw.itemsize`: a multiple of the largest alignment. -/
def itemsize : ℕ := alignUp (layout 0 dtypeRaw).2 ((dtypeRaw.map (fun f => f.typ.size)).foldl max 1)

/-- A little-endian number. -/
def leNat : List UInt8 → ℕ
  | [] => 0
  | b :: bs => b.toNat + 256 * leNat bs

/-- A two's complement number of `k` bytes. -/
def signed (k n : ℕ) : ℤ := if 2 * n < 256 ^ k then n else (n : ℤ) - 256 ^ k

/-- A number as numpy has it: an integer, or the 32 bits of a floating point number. -/
inductive Val where
  | int (z : ℤ)
  | float (bits : ℕ)
  deriving DecidableEq

/-- Interpret the bytes of a number. -/
def ofBytes (t : Typ) (bs : List UInt8) : Val :=
  match t with
  | .i8 => .int (signed 8 (leNat bs))
  | .i4 => .int (signed 4 (leNat bs))
  | .f4 => .float (leNat bs)

/-- The numbers of an entry of a record. -/
def readEntry (r : List UInt8) (s : FieldType × ℕ) : List Val :=
  (List.range s.1.count).map (fun j =>
    ofBytes s.1.typ ((r.drop (s.2 + j * s.1.typ.size)).take s.1.typ.size))

/-- The 32 bits of the entry `flags`. -/
def flagBits (r : List UInt8) : ℕ :=
  match slots.find? (fun s => s.1.name = "flags") with
  | none => 0
  | some s => leNat ((r.drop s.2).take s.1.typ.size)

/-- A record. -/
def record (r : List UInt8) : Rec Val :=
  ⟨flagBits r, slots.map (fun s => (s.1.name, readEntry r s))⟩

/-- `np.fromfile`, line 279: as many records as fit completely; what is left of the file is ignored. -/
def fromFile (bytes : List UInt8) : List (Rec Val) :=
  (List.range (bytes.length / itemsize)).map (fun i =>
    record ((bytes.drop (i * itemsize)).take itemsize))

/-- `_bin_loader` on the bytes of a file, lines 278-288; names that are not in the record type raise
(line 284). -/
def binFile (bytes : List UInt8) (fields : List Name) :
    Except Err (PyDict Name (List (List Val)) × ℕ) :=
  if fields.any (fun f => !(dtypeRaw.map (fun t => t.name)).contains f) then .error .valueError
  else binLoader (fromFile bytes) fields

end Verif.Load
