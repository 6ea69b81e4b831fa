import Verif.Spec.LightCone
import Verif.Model.LCSphere

/-!
# What a light sphere should contain
-/

namespace Verif.LC.Spec

variable {K : Type} [Field K] [LinearOrder K]

/-- The part of space a shape covers, seen from the observer at the origin. -/
def Region (s : Shape) (v : Fin 3 → K) : Prop :=
  match s with
  | .sphere => True
  | .hemisphere => 0 < v 2
  | .quarter => 0 < v 1 ∧ 0 < v 2
  | .eighth => ∀ a, 0 ≤ v a
  | .other => False

/-- The squared distance from the observer. -/
def dist2 (v : Fin 3 → K) : K := v 0 ^ 2 + v 1 ^ 2 + v 2 ^ 2

/-- `v` is a position, seen from `origin`, of a periodic image of a halo at `pos`, where the box
may be mirrored. -/
def IsCopy (box : K) (flips : Fin 3 → ℤ) (origin pos v : Fin 3 → K) : Prop :=
  ∃ k : Fin 3 → ℤ, v = fun a => flips a * pos a - origin a + box * k a

end Verif.LC.Spec
