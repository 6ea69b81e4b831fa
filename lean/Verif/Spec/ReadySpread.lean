import Mathlib.Probability.Moments.Variance
import Verif.Spec.ReadyAverage

/-!
# How much the totals of ready-made properties vary
-/

namespace Verif.Ready.Spec

open Verif.Gal (Rng)
open MeasureTheory ProbabilityTheory

/-- The random numbers of a halo do not depend on those of another one. -/
def Unrelated {Ω G : Type} [MeasurableSpace Ω] (P : Measure Ω) (R : Ω → Rng ℝ G) : Prop :=
  ∀ (n : ℕ) (g g' : G) (i j : ℕ), i < n → j < n → i ≠ j →
    IndepFun (fun ω => (((R ω).normal n g).1.getD i 0, ((R ω).uniform n g').1.getD i 0))
      (fun ω => (((R ω).normal n g).1.getD j 0, ((R ω).uniform n g').1.getD j 0)) P

/-- The properties whose scatter leaves the mean unchanged. -/
def keepsMean (p : Which) : Bool := p ∈ [.liCo, .gaoHcn, .behrooziSfr, .behrooziMass]

/-- The scatter of the properties in dex. -/
noncomputable def scatter (E : Env ℝ) (z : ℝ) (p : Which) : ℝ :=
  if keepsMean p then 0.3 else medianScatter E z p

/-- The average of the square of a ready-made property. -/
noncomputable def squareOnAverage (E : Env ℝ) (p : Which) (m r z : ℝ) : ℝ :=
  switchedOn E m z p * published E m r z p ^ 2 *
    10 ^ ((if keepsMean p then 1 else 2) * scatter E z p ^ 2 * Real.log 10)

/-- Its variance. -/
noncomputable def spread (E : Env ℝ) (p : Which) (m r z : ℝ) : ℝ :=
  squareOnAverage E p m r z - onAverage E p m r z ^ 2

end Verif.Ready.Spec
