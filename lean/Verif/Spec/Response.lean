import Verif.Spec.GridPsf
import Verif.Model.Response

/-!
# Vocabulary for statements about response functions
-/

namespace Verif.Inst.Spec

noncomputable section

/-- The numbers on an axis: a number is an axis of one. -/
def numbers : AxisArg → Option (List ℝ)
  | .num x => some [x]
  | .arr l => some l
  | _ => none

/-- The array `r` has one value for each position along `x` and `y` and each frequency `f`: the value `v` of these. -/
def Tabulates (r : Map.Arr ℝ) (x y f : List ℝ) (v : ℝ → ℝ → ℝ → ℝ) : Prop :=
  r.shape = [x.length, y.length, f.length] ∧
    ∀ i j k a b c, x[i]? = some a → y[j]? = some b → f[k]? = some c → r.get [i, j, k] = v a b c

/-- A round or elliptic Gaussian beam. -/
def beam (o : BeamArgs) (wx wy x y : ℝ) : ℝ := Map.Spec.bell wx (x - o.cx) * Map.Spec.bell wy (y - o.cy)

/-- `n` channels of spacing `w`, the first at `a`. -/
def channels (n : ℕ) (a w : ℝ) : List ℝ := (List.range n).map (fun (k : ℕ) => a + (k : ℝ) * w)

end

end Verif.Inst.Spec
