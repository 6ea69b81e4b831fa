import Verif.Model.LumFun
import Mathlib.Analysis.SpecialFunctions.Pow.Real

/-!
# What the parameters of a luminosity function mean

A luminosity function is given as `lum m x`: the number of objects of luminosity `x` if luminosities
below `m` are left out.
-/

namespace Verif.LF.Spec

/-- Luminosities below the minimum do not occur. -/
def NoneBelow (lum : ℝ → ℝ → ℝ) : Prop := ∀ m x, x < m → lum m x = 0

/-- Towards faint objects the luminosity function is as close as wanted to the power law
`a (x/x0)^s`, whatever the minimum. -/
def FaintEnd (lum : ℝ → ℝ → ℝ) (a x0 s : ℝ) : Prop :=
  ∀ e, 0 < e → ∃ b, 0 < b ∧ ∀ m x, 0 < m → m ≤ x → x < b → |lum m x / (a * (x / x0) ^ s) - 1| < e

/-- Towards bright objects the luminosity function is as close as wanted to `a (x/x0)^s`. -/
def BrightEnd (lum : ℝ → ℝ → ℝ) (a x0 s : ℝ) : Prop :=
  ∀ e, 0 < e → ∃ b, ∀ m x, 0 < m → m ≤ x → b < x → |lum m x / (a * (x / x0) ^ s) - 1| < e

/-- Towards bright objects the luminosity function falls below every power law. -/
def FallsOff (lum : ℝ → ℝ → ℝ) : Prop :=
  ∀ (n : ℕ) (e : ℝ), 0 < e → ∃ b, ∀ m x, 0 < m → m ≤ x → b < x → 0 < lum m x ∧ x ^ n * lum m x < e

/-- Brighter objects are rarer. -/
def Rarer (lum : ℝ → ℝ → ℝ) : Prop := ∀ m x y, 0 < m → m ≤ x → x < y → lum m y < lum m x

/-- What a distribution answers: the number of objects above a luminosity, cumulative fractions,
densities and quantiles. -/
structure Answers where
  count : ℝ → ℝ
  cdf : ℝ → Option ℝ
  pdf : ℝ → Option ℝ
  ppf : ℝ → Option ℝ

/-- `b` is `a` with all luminosities multiplied by `u` and all numbers of objects by `v`: fractions and
densities per factor of ten stay the same. -/
structure Rescaled (a b : Answers) (u v : ℝ) : Prop where
  count : ∀ x, b.count (u * x) = v * a.count x
  cdf : ∀ x, b.cdf (u * x) = a.cdf x
  pdf : ∀ x, b.pdf (u * x) = a.pdf x
  ppf : ∀ q, b.ppf q = (a.ppf q).map (fun x => u * x)

end Verif.LF.Spec
