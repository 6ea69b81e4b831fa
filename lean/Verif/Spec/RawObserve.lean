import Verif.Spec.ConeObserve
import Verif.Spec.LightCone
import Verif.Spec.LCSource

/-!
# What raw halos look like to an instrument
-/

namespace Verif.Inst.Spec

open Verif.LC (Settings Sky)
open Verif.LC.Spec (Origin IsImage posName)
open Matrix

variable {K : Type} [_root_.Field K] [LinearOrder K] [IsStrictOrderedRing K] [FloorRing K]

/-- The object `o` is raw halo `j` of the snapshot `s`, seen in a lightcone: its mass is at least the minimum mass; a
periodic image of it is at distance `D`; the angles are those of the image (for small angles), the third coordinate is
the redshift of this distance or the frequency of a line there; and its light is its raw property `p`, converted by
`f`. -/
def HaloSeen (s : Origin K) (st : Settings K) (sky : Sky K) (p : String) (f : K → K) (line : Option K) (j : ℕ)
    (o : Source K) : Prop :=
  ∃ (m v D : K) (pos img : Fin 3 → K), s.Raw j "mass" m ∧ st.minMass ≤ m ∧ (∀ a, s.Raw j (posName a) (pos a)) ∧
    IsImage st.box (sky.paM * sky.losM) sky.flips sky.start pos img ∧
    D = st.root (img 0 ^ 2 + img 1 ^ 2 + img 2 ^ 2) ∧ o.x = img 1 / D ∧ o.y = img 2 / D ∧
    o.z = line.elim (st.assignZ D) (fun f => f / (1 + st.assignZ D)) ∧ s.Raw j p v ∧ o.v = f v

/-- The power of `h` by which a number is converted, unless it is wanted in units with `h`. -/
def convert (h : K) (ε : ℤ) (inH : Bool) (x : K) : K := if inH then x else x * h ^ ε

end Verif.Inst.Spec
