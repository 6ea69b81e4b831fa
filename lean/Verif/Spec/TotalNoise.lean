import Mathlib.Probability.Moments.Covariance
import Verif.Spec.WhiteNoise

/-!
# Single samples
-/

namespace Verif.Inst.Spec

/-- In the samples `out` (for each field one list per detector) sample `t` of the detector at place `i`, for the field
at place `j`, is the number `x`; the field is `f`. -/
def Sampled (out : List (Name × List (List (Option ℝ)))) (j : ℕ) (f : Name) (i t : ℕ) (x : ℝ) : Prop :=
  ∃ cols c, out[j]? = some (f, cols) ∧ cols[i]? = some c ∧ c[t]? = some (some x)

end Verif.Inst.Spec
