import Mathlib.Probability.Moments.Covariance
import Verif.Spec.ReadyObserve
import Verif.Spec.ReadySpread

/-!
# How samples of detectors vary together
-/

namespace Verif.Ready.Spec

open MeasureTheory ProbabilityTheory

/-- The sample of detector `i` at position `t` is the number `x`. -/
def SampleIs (cols : List (List (Option ℝ))) (i t : ℕ) (x : ℝ) : Prop :=
  ∃ c, cols[i]? = some c ∧ c[t]? = some (some x)

/-- The samples `cols ω` vary as the light of `n` independent objects with variances `var`, of which `unit k` is
recorded for object `k` alone with light one: samples are numbers if they are for one of the objects alone; samples
that are numbers have a variance, and the covariance of any two of them is the sum of the
variances of the objects, each times what is recorded of the object in both. -/
def SamplesVary {Ω : Type} [MeasurableSpace Ω] (P : Measure Ω) (cols : Ω → List (List (Option ℝ))) (n : ℕ)
    (unit : ℕ → List (List (Option ℝ))) (var : ℕ → ℝ) : Prop :=
  (∀ k < n, ∀ (i t : ℕ) (x : ℝ), SampleIs (unit k) i t x → ∃ v : Ω → ℝ, ∀ ω, SampleIs (cols ω) i t (v ω)) ∧
  (∀ (i t : ℕ) (v : Ω → ℝ), (∀ ω, SampleIs (cols ω) i t (v ω)) → MemLp v 2 P) ∧
  ∀ (i t i' t' : ℕ) (v v' : Ω → ℝ), (∀ ω, SampleIs (cols ω) i t (v ω)) → (∀ ω, SampleIs (cols ω) i' t' (v' ω)) →
    ∃ g g' : ℕ → ℝ, (∀ k < n, SampleIs (unit k) i t (g k)) ∧ (∀ k < n, SampleIs (unit k) i' t' (g' k)) ∧
      cov[v, v'; P] = ∑ k ∈ Finset.range n, g k * g' k * var k

end Verif.Ready.Spec
