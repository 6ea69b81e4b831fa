import Mathlib.Analysis.SpecialFunctions.Log.Base

/-!
# Specification for C124: published stellar mass functions
-/

namespace Verif.Rel.Spec

/-- A published stellar mass function: the range of redshifts, the decadic logarithm of the characteristic mass, the
slope and amplitude of the first component, and those of the second. -/
structure Published where
  z0 : ℝ
  z1 : ℝ
  logMass : ℝ
  slope1 : ℝ
  amp1 : ℝ
  slope2 : ℝ
  amp2 : ℝ

/-- The factor between the masses of Grazian et al. (Salpeter) and the others (Chabrier). -/
noncomputable def imf : ℝ := Real.logb 10 0.61

/-- Kelvin et al. 2014, Moutard et al. 2016, Davidzon et al. 2017, Grazian et al. 2015. -/
noncomputable def published : List Published :=
  [⟨0.025, 0.06, 10.64, -0.43, 0.00418, -1.5, 0.00074⟩,
   ⟨0.2, 0.5, 10.83, -0.95, 10 ^ (-2.63 : ℝ), -1.82, 10 ^ (-4.01 : ℝ)⟩,
   ⟨0.5, 0.8, 10.76, -0.57, 10 ^ (-2.66 : ℝ), -1.49, 10 ^ (-3.24 : ℝ)⟩,
   ⟨0.8, 1.1, 10.68, -0.33, 10 ^ (-2.57 : ℝ), -1.49, 10 ^ (-3.24 : ℝ)⟩,
   ⟨1.1, 1.5, 10.66, 0.19, 10 ^ (-2.88 : ℝ), -1.49, 10 ^ (-3.24 : ℝ)⟩,
   ⟨1.5, 2, 10.51, 0.82, 0.00064, -1.28, 0.000969⟩,
   ⟨2, 2.5, 10.6, 0.07, 0.00045, -1.57, 0.000295⟩,
   ⟨2.5, 3, 10.59, -0.08, 0.00021, -1.67, 0.000228⟩,
   ⟨3, 3.5, 10.83, 0, 0, -1.76, 0.00009⟩,
   ⟨3.5, 4.5, 10.96 + imf, 0, 0, -1.63, 10 ^ (-3.94 : ℝ)⟩,
   ⟨4.5, 5.5, 10.78 + imf, 0, 0, -1.63, 10 ^ (-4.18 : ℝ)⟩,
   ⟨5.5, 6.5, 10.49 + imf, 0, 0, -1.55, 10 ^ (-4.16 : ℝ)⟩,
   ⟨6.5, 7.5, 10.69 + imf, 0, 0, -1.88, 10 ^ (-5.24 : ℝ)⟩]

/-- The middle of the range of redshifts. -/
noncomputable def Published.centre (q : Published) : ℝ := (q.z0 + q.z1) / 2

/-- The characteristic mass seen with another cosmology: the flux that was observed, at the other distance. -/
noncomputable def Published.mass (q : Published) (dlold dlnew : ℝ → ℝ) : ℝ :=
  10 ^ q.logMass / dlold q.centre ^ 2 * dlnew q.centre ^ 2

/-- The number per volume seen with another cosmology: the number that was observed, in the other volume. -/
noncomputable def Published.perVolume (q : Published) (amp : ℝ) (vold vnew : ℝ → ℝ) : ℝ :=
  amp * vold q.centre / vnew q.centre

/-- Distances and volumes are positive at positive redshifts. -/
def Positive (f : ℝ → ℝ) : Prop := ∀ z, 0 < z → 0 < f z

end Verif.Rel.Spec
