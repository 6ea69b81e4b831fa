import Mathlib.Analysis.SpecialFunctions.Trigonometric.Basic
import Mathlib.MeasureTheory.Constructions.Pi
import Mathlib.MeasureTheory.Measure.Lebesgue.Basic

/-!
# Specification: when a line of sight can be found (C126)
-/

namespace Verif.LC.Spec

open MeasureTheory

/-- A result of `rng.random(3)`. -/
def Drawn (v : Fin 3 → ℝ) : Prop := ∀ a, 0 ≤ v a ∧ v a < 1

/-- There is room for a cone of the given radius (in radians) up to a distance: the radius is less
than 15 degrees, and the diagonal of the boxes is long enough. -/
def Room (radius box far : ℝ) (copies : ℕ) : Prop :=
  radius < Real.pi / 12 ∧
    10 < copies * (Real.sqrt 3 * box) - 2 * (1.01 * Real.tan radius * Real.sqrt 2 * far)

noncomputable section

/-- The distribution of `rng.random(3)`: three independent numbers, uniform in [0, 1). -/
def drawMeasure : Measure (Fin 3 → ℝ) :=
  Measure.pi (fun _ => (volume : Measure ℝ).restrict (Set.Ico 0 1))

/-- The distribution of `3 k` independent draws, in groups of three. -/
def drawsMeasure (k : ℕ) : Measure (Fin k → Fin 3 → Fin 3 → ℝ) :=
  Measure.pi (fun _ => Measure.pi (fun _ => drawMeasure))

end

/-- The draws in order. -/
def inOrder {k : ℕ} (t : Fin k → Fin 3 → Fin 3 → ℝ) : List (Fin 3 → ℝ) :=
  (List.ofFn (fun i => List.ofFn (t i))).flatten

end Verif.LC.Spec
