import Verif.Model.LCHandler

/-!
# Vocabulary for statements about lightcone handlers
-/

namespace Verif.LCH.Spec

open Verif.Handler (Name V State)

variable {K : Type} [Field K] [LinearOrder K]

/-- The part of the sky (in the small angle approximation the package uses) seen through a
rectangular aperture with sides `angle` and `angle * aspect`, or a circular one of diameter
`angle`. -/
def Aperture : LCShape → K → K → K → K → Prop
  | .box, angle, aspect, x, y => |x| ≤ angle / 2 ∧ |y| ≤ angle * aspect / 2
  | .circle, angle, _, x, y => x ^ 2 + y ^ 2 ≤ (angle / 2) ^ 2
  | _, _, _, _, _ => False

/-- Solid angle of an aperture. -/
def area (pi : K) : LCShape → K → K → K
  | .box, angle, aspect => angle * (angle * aspect)
  | _, angle, _ => pi * angle ^ 2 / 4

/-- The objects (of all in the catalogue) with a redshift between the edges, edges included;
`zs` are the redshifts. -/
def InBin (zs : List (V K)) (lo hi : K) (i : ℕ) : Prop :=
  ∃ z, zs[i]? = some (some z) ∧ lo ≤ z ∧ z ≤ hi

/-- The handler with the selection replaced. -/
def withSelection (s : State K) (sel : List ℕ) : State K :=
  { s with active := sel, nActive := sel.length }

end Verif.LCH.Spec
