import Verif.Model.BinFile
import Mathlib.Algebra.Order.Field.Rat

/-!
# The format of binary catalogues of UniverseMachine

The published format is a sequence of C structures, one per halo: three integers of 64 bits, the flags,
and floating point numbers of 32 bits.
-/

namespace Verif.Load.Spec

/-- The bytes of a number, the lowest first. -/
def bytesOf : ℕ → ℕ → List UInt8
  | 0, _ => []
  | k + 1, n => UInt8.ofNat n :: bytesOf k (n / 256)

/-- The numbers after the velocities, all of them floating point numbers. -/
def floatNames : List String :=
  ["vmp", "lvmp", "mp", "m", "v", "r", "rank1", "rank2", "ra", "rarank", "a_uv", "sm", "icl", "sfr", "obs_sm",
   "obs_sfr", "obs_uv", "empty"]

/-- A halo of a catalogue; floating point numbers are given by their 32 bits. -/
structure BinHalo where
  id : ℤ
  descid : ℤ
  upid : ℤ
  flags : ℕ
  uparentDist : ℕ
  pos : List ℕ
  float : String → ℕ

/-- The numbers fit into the structure. -/
structure BinHalo.Fits (h : BinHalo) : Prop where
  id : -(2 ^ 63) ≤ h.id ∧ h.id < 2 ^ 63
  descid : -(2 ^ 63) ≤ h.descid ∧ h.descid < 2 ^ 63
  upid : -(2 ^ 63) ≤ h.upid ∧ h.upid < 2 ^ 63
  flags : h.flags < 2 ^ 32
  uparentDist : h.uparentDist < 2 ^ 32
  pos : h.pos.length = 6 ∧ ∀ w ∈ h.pos, w < 2 ^ 32
  float : ∀ k ∈ floatNames, h.float k < 2 ^ 32

/-- The bytes of a halo. -/
def encode (h : BinHalo) : List UInt8 :=
  bytesOf 8 (h.id % 2 ^ 64).toNat ++ bytesOf 8 (h.descid % 2 ^ 64).toNat ++
    bytesOf 8 (h.upid % 2 ^ 64).toNat ++ bytesOf 4 h.flags ++ bytesOf 4 h.uparentDist ++
    h.pos.flatMap (bytesOf 4) ++ floatNames.flatMap (fun k => bytesOf 4 (h.float k))

/-- The bytes of a catalogue. -/
def encodeAll (hs : List BinHalo) : List UInt8 := hs.flatMap encode

/-- The numbers of a halo under a name. -/
def valuesOf (h : BinHalo) (name : String) : List Val :=
  if name = "id" then [.int h.id]
  else if name = "descid" then [.int h.descid]
  else if name = "upid" then [.int h.upid]
  else if name = "flags" then [.int (if h.flags < 2 ^ 31 then h.flags else (h.flags : ℤ) - 2 ^ 32)]
  else if name = "uparent_dist" then [.float h.uparentDist]
  else if name = "pos" then h.pos.map .float
  else [.float (h.float name)]

/-- All names. -/
def names : List String := ["id", "descid", "upid", "flags", "uparent_dist", "pos"] ++ floatNames

/-- The flag of halos that are not to be used. -/
def Unused (h : BinHalo) : Prop := h.flags / 16 % 2 = 1

instance (h : BinHalo) : Decidable (Unused h) := inferInstanceAs (Decidable (_ = _))

/-- The number a value stands for; the 32 bits of a floating point number are read as in IEEE 754, `none`
if it is not finite. -/
def number : Val → Option ℚ
  | .int z => some z
  | .float w =>
    let s : ℚ := if w / 2 ^ 31 % 2 = 1 then -1 else 1
    let e : ℕ := w / 2 ^ 23 % 256
    let m : ℕ := w % 2 ^ 23
    if e = 255 then none
    else if e = 0 then some (s * ((m : ℚ) / 2 ^ 149))
    else some (s * ((2 ^ 23 + (m : ℚ)) * 2 ^ e / 2 ^ 150))

end Verif.Load.Spec
