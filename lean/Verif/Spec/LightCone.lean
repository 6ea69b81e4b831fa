import Mathlib.LinearAlgebra.Matrix.Determinant.Basic
import Mathlib.LinearAlgebra.Matrix.Notation
import Mathlib.Algebra.Order.Field.Basic

/-!
# What a lightcone should contain, independently of how it is made
-/

namespace Verif.LC.Spec

open Matrix

variable {K : Type} [Field K]

/-- `v` is the position, seen from `origin`, of a periodic image of a halo at `pos`: the box is
mirrored, the halo moved by a whole number of box lengths along each axis, and the result
rotated. -/
def IsImage (box : K) (rot : Matrix (Fin 3) (Fin 3) K) (flips : Fin 3 → ℤ)
    (origin pos v : Fin 3 → K) : Prop :=
  ∃ k : Fin 3 → ℤ, v = rot *ᵥ fun a => flips a * pos a - origin a + box * k a

/-- A matrix that preserves lengths and orientation. -/
def IsRotation (m : Matrix (Fin 3) (Fin 3) K) : Prop := m * m.transpose = 1 ∧ m.det = 1

variable [LinearOrder K]

/-- A circular field of view with this angular diameter around the first axis (small-angle
coordinates: transverse distance over distance). -/
def InCircle (diameter : K) (dist transverse along : K) : Prop :=
  0 < along ∧ transverse / dist < diameter / 2

/-- A rectangular field of view around the first axis. -/
def InRectangle (width height : K) (ra dec along : K) : Prop :=
  0 < along ∧ |ra| ≤ width / 2 ∧ |dec| ≤ height / 2

end Verif.LC.Spec
