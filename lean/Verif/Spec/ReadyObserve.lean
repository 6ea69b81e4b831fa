import Verif.Spec.ReadyAverage
import Verif.Spec.ConeObserve

/-!
# What detectors record on average
-/

namespace Verif.Ready.Spec

open MeasureTheory

/-- The samples `cols ω` (for each detector, one for each position) have the average `mean`: the same number of samples,
NaN at the same positions, and otherwise numbers whose average is that in `mean`. -/
def SamplesAverage {Ω : Type} [MeasurableSpace Ω] (P : Measure Ω) (cols : Ω → List (List (Option ℝ)))
    (mean : List (List (Option ℝ))) : Prop :=
  (∀ ω, (cols ω).map List.length = mean.map List.length) ∧
  ∀ (i t : ℕ) (c : List (Option ℝ)), mean[i]? = some c →
    (c[t]? = some none → ∀ ω, ∃ c', (cols ω)[i]? = some c' ∧ c'[t]? = some none) ∧
    ∀ x, c[t]? = some (some x) → ∃ v : Ω → ℝ,
      (∀ ω, ∃ c', (cols ω)[i]? = some c' ∧ c'[t]? = some (some (v ω))) ∧ Integrable v P ∧ ∫ ω, v ω ∂P = x

/-- Objects at these places (right ascension, declination, and redshift or frequency) with the light `v`. -/
noncomputable def sources (line : Option ℝ) (pos : List (ℝ × ℝ × ℝ)) (v : ℕ → ℝ) : List (Inst.Spec.Source ℝ) :=
  (List.range pos.length).map (fun j => ⟨(pos.getD j 0).1, (pos.getD j 0).2.1,
    line.elim (pos.getD j 0).2.2 (fun f => f / (1 + (pos.getD j 0).2.2)), v j⟩)

end Verif.Ready.Spec
