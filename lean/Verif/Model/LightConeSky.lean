import Mathlib.LinearAlgebra.Matrix.NonsingularInverse
import Mathlib.Analysis.SpecialFunctions.Trigonometric.Arctan
import Verif.Model.LightCone

/-!
# Model of the line of sight and position angle of a lightcone (`lcmaker.py:445-540`)

Over the real numbers.  The random draws are inputs.
-/

namespace Verif.LC

open Matrix

noncomputable section

/-- `np.cross`. -/
def cross (a b : Vec ℝ) : Vec ℝ :=
  ![a 1 * b 2 - a 2 * b 1, a 2 * b 0 - a 0 * b 2, a 0 * b 1 - a 1 * b 0]

/-- `v / np.linalg.norm(v)`, `lcmaker.py:492, 510`. -/
def unit (v : Vec ℝ) : Vec ℝ := fun a => v a / Real.sqrt (sumSq v)

/-- `LC_transformation_matrix`, `lcmaker.py:509-514`. -/
def losMatrix (u : Vec ℝ) : Mat ℝ :=
  let u2 := unit (cross u ![0, 0, 1])
  let u3 := cross u u2
  ((Matrix.of ![u, u2, u3])ᵀ)⁻¹

/-- `_initialize_pa`, `lcmaker.py:534-538`. -/
def paMatrix (θ : ℝ) : Mat ℝ :=
  !![1, 0, 0; 0, Real.cos θ, -Real.sin θ; 0, Real.sin θ, Real.cos θ]

/-- `np.amin(angles)`, `lcmaker.py:495-498`. -/
def minAngle (u : Vec ℝ) : ℝ :=
  min (min (min (Real.arctan (u 1 / u 0)) (Real.arctan (u 2 / u 0))) (Real.arctan (u 2 / u 1)))
    (min (min (Real.arctan (u 0 / u 1)) (Real.arctan (u 0 / u 2))) (Real.arctan (u 1 / u 2)))

/-- `buffer_coef`, `lcmaker.py:498`. -/
def bufferCoef (radius : ℝ) (u : Vec ℝ) : ℝ :=
  1.01 * Real.tan radius / Real.sin (minAngle u)

/-- `radius` in `build_lightcones`, `lcmaker.py:565-572`: the radius of a circle around the cross
section. -/
def openRadius (st : Settings ℝ) : ℝ :=
  match st.mode with
  | .circle => st.angle / 2
  | .box => Real.sqrt (st.angle ^ 2 + (st.angle * st.aspect) ^ 2) / 2

/-- `test_a`, `lcmaker.py:479-483`. -/
def testA (radius : ℝ) (v : Vec ℝ) : Prop :=
  v 1 ≠ 0 ∧ Real.tan (radius + Real.pi / 180) < v 0 / v 1 ∧
    v 0 / v 1 < Real.tan (Real.pi / 2 - 3 * radius - Real.pi / 180)

/-- `test_b`, `lcmaker.py:485-489`. -/
def testB (radius : ℝ) (v : Vec ℝ) : Prop :=
  v 2 ≠ 0 ∧ Real.tan (3 * radius) < v 0 / v 2 ∧
    v 0 / v 2 < Real.tan (Real.pi / 2 - 3 * radius)

/-- `test_geom`, `lcmaker.py:492-505`; a zero sine gives an infinite buffer and fails. -/
def testGeom (radius box maxDistance : ℝ) (copiesMax : ℕ) (v : Vec ℝ) : Prop :=
  Real.sin (minAngle (unit v)) ≠ 0 ∧
    10 < copiesMax * (box / maxComp (unit v)) - 2 * (bufferCoef radius (unit v) * maxDistance)

open Classical in
/-- The two loops of `_initialize_los`, `lcmaker.py:469-505`, on a list of draws; `none` if it
needs more draws.  The flags `test_a` and `test_b` are not reset by a further draw. -/
def pickLos (radius box maxDistance : ℝ) (copiesMax : ℕ) :
    Bool → Bool → List (Vec ℝ) → Option (Vec ℝ)
  | _, _, [] => none
  | a, b, v :: rest =>
    let a' := a || decide (testA radius v)
    let b' := b || decide (testB radius v)
    if a' && b' then
      if testGeom radius box maxDistance copiesMax v then some v
      else pickLos radius box maxDistance copiesMax false false rest
    else pickLos radius box maxDistance copiesMax a' b' rest

/-- The line of sight, matrices and buffer used for a lightcone, from an accepted draw
(`lcmaker.py:492-516, 578-596`). -/
def skyOf (radius : ℝ) (start : Vec ℝ) (flips : Fin 3 → ℤ) (θ : ℝ) (v : Vec ℝ) : Sky ℝ where
  start := start
  flips := flips
  los := unit v
  losM := losMatrix (unit v)
  paM := paMatrix θ
  bufCoef := bufferCoef radius (unit v)

end

end Verif.LC
