import Verif.Spec.GridAdd

/-!
# Vocabulary for statements about making grids from catalogues and axes
-/

namespace Verif.Map.Spec

variable {K : Type} [Field K] [LinearOrder K]

/-- The coordinates on axis `i` of a catalogue lie between `lo` and `hi`, and both occur. -/
structure Extent (rows : List (List K)) (i : ℕ) (lo hi : K) : Prop where
  low : ∃ r ∈ rows, r[i]? = some lo
  high : ∃ r ∈ rows, r[i]? = some hi
  within : ∀ r ∈ rows, ∀ x, r[i]? = some x → lo ≤ x ∧ x ≤ hi

/-- The documented default side length: slightly larger than the extent of the catalogue, 1 if all
objects have the same coordinate. -/
def defaultSide (lo hi : K) : K := if lo = hi then 1 else (hi - lo) * (1 + 1 / 10 ^ 7)

/-- `n + 1` equally spaced edges, the first at `a`, the others `w` apart (downwards if `w < 0`). -/
def steps (n : ℕ) (a w : K) : List K := (List.range (n + 1)).map (fun j : ℕ => a + j * w)

/-- A floating point number with 53 binary digits. -/
def IsDouble (x : K) : Prop := ∃ m e : ℤ, |m| < 2 ^ 53 ∧ x = m * 2 ^ e

/-- Rounding to the nearest floating point number, whatever happens half-way. -/
def Nearest (rd : K → K) : Prop :=
  ∀ x, IsDouble (rd x) ∧ ∀ y, IsDouble y → |rd x - x| ≤ |y - x|

end Verif.Map.Spec
