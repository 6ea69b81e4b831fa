import Mathlib.Data.Nat.Digits.Defs
import Mathlib.Data.Int.Notation
import Verif.Model.TextFile

/-!
# Specification for C123: text catalogues as UniverseMachine writes them
-/

namespace Verif.Load.Spec

/-- A digit as a character. -/
def digitChar (d : ℕ) : Char := Char.ofNat (48 + d)

/-- A natural number in decimal notation. -/
def decimalNat (n : ℕ) : List Char :=
  if n = 0 then ['0'] else (Nat.digits 10 n).reverse.map digitChar

/-- An integer in decimal notation. -/
def decimal (z : ℤ) : List Char :=
  if z < 0 then '-' :: decimalNat z.natAbs else decimalNat z.natAbs

/-- The columns after the four integers. -/
def textFloats : List String :=
  ["uparent_dist", "x", "y", "z", "vx", "vy", "vz", "m", "v", "mp", "vmp", "r", "rank1", "rank2", "ra",
   "rarank", "sm", "icl", "sfr", "obs_sm", "obs_sfr", "obs_ssfr", "smhm", "obs_uv"]

/-- All columns. -/
def textNames : List String := ["id", "descid", "upid", "flags"] ++ textFloats

/-- A halo: its integers, and for each other column the number and the text it is written as. -/
structure TextHalo (F : Type) where
  id : ℤ
  descid : ℤ
  upid : ℤ
  flags : ℤ
  float : String → F
  text : String → List Char

/-- A word: not empty, and without white space, ends of lines, or the sign that starts a comment. -/
def Word (w : List Char) : Prop :=
  w ≠ [] ∧ ∀ c ∈ w, c ∉ [' ', '\t', '\x0b', '\x0c', '\n', '\r', '#']

variable {F : Type}

/-- An integer of 32 bits. -/
def Bits32 (z : ℤ) : Prop := -(2 ^ 31) ≤ z ∧ z < 2 ^ 31

/-- The texts are words that denote the numbers, and the integers have 32 bits. -/
structure TextHalo.Fits (pf : List Char → Option F) (h : TextHalo F) : Prop where
  id : Bits32 h.id
  descid : Bits32 h.descid
  upid : Bits32 h.upid
  flags : Bits32 h.flags
  text : ∀ k ∈ textFloats, Word (h.text k) ∧ pf (h.text k) = some (h.float k)

/-- The words of a line. -/
def words (h : TextHalo F) : List (List Char) :=
  [decimal h.id, decimal h.descid, decimal h.upid, decimal h.flags] ++ textFloats.map h.text

/-- Words with single spaces between them. -/
def spaced : List (List Char) → List Char
  | [] => []
  | [w] => w
  | w :: ws => w ++ ' ' :: spaced ws

/-- The lines of halos, each with an end of line. -/
def body (hs : List (TextHalo F)) : List Char :=
  (hs.map (fun h => spaced (words h) ++ ['\n'])).flatten

/-- Lines of comments, each with an end of line. -/
def header (cs : List (List Char)) : List Char :=
  (cs.map (fun c => '#' :: c ++ ['\n'])).flatten

/-- The number of a halo in a column. -/
def numberOf (h : TextHalo F) (k : String) : TVal F :=
  if k = "id" then .int h.id
  else if k = "descid" then .int h.descid
  else if k = "upid" then .int h.upid
  else if k = "flags" then .int h.flags
  else .float (h.float k)

end Verif.Load.Spec
