import Verif.Spec.GalRelations

/-!
# Vocabulary for the fractions of quenched galaxies and starbursts
-/

namespace Verif.Gal.Spec

open MeasureTheory ProbabilityTheory

variable {Ω G : Type} [MeasurableSpace Ω]

/-- Generators whose state says how many numbers were used, and which give numbers that do not depend on those
given before: of calls one after the other, the numbers at each place are independent. -/
structure Independent (P : Measure Ω) (R : Ω → Rng ℝ G) : Prop where
  normal_moves : ∀ n g ω ω', ((R ω).normal n g).2 = ((R ω').normal n g).2
  uniform_moves : ∀ n g ω ω', ((R ω).uniform n g).2 = ((R ω').uniform n g).2
  uniform_next : ∀ n g ω (i : ℕ), IndepFun (fun ω' => ((R ω').uniform n g).1.getD i 0)
    (fun ω' => ((R ω').uniform n ((R ω).uniform n g).2).1.getD i 0) P
  normal_next : ∀ n g ω (i : ℕ), IndepFun (fun ω' => ((R ω').normal n g).1.getD i 0)
    (fun ω' => (((R ω').uniform n ((R ω).normal n g).2).1.getD i 0,
      ((R ω').uniform n ((R ω).uniform n ((R ω).normal n g).2).2).1.getD i 0)) P

/-- Bethermin et al. 2017: the fraction of galaxies of stellar mass `m` at redshift `z` that form stars. -/
noncomputable def starForming (erf : ℝ → ℝ) (p : B17 ℝ) (m z : ℝ) : ℝ :=
  (1 - p.fq00 * (1 + z) ^ p.gamma) / 2 *
    (1 - erf ((lg m - (p.logmt0 + p.alpha1 * z + p.alpha2 * z ^ 2)) /
      (p.sigsf0 + p.beta1 * z + p.beta2 * z ^ 2)))

/-- The fraction of the star forming galaxies that are starbursts: grows from 1.5 per cent to 3 per cent at
redshift one. -/
noncomputable def bursting (z : ℝ) : ℝ := 0.015 * (1 + min z 1)

/-- Bethermin et al. 2017, after Schreiber et al. 2015: the logarithm of the star formation rate on the main
sequence.  Below redshift 0.5 it can be corrected, by 0.1 at redshift 0.22. -/
noncomputable def mainSequence (p : B17 ℝ) (m z : ℝ) : ℝ :=
  lg (m / 10 ^ 9) - p.m0 + p.a0 * lg (1 + z) - p.a1 * max 0 (lg (m / 10 ^ 9) - p.m1 - p.a2 * lg (1 + z)) ^ 2 -
    if p.lowz then 0.1 * max 0 (0.5 - z) / (0.5 - 0.22) else 0

/-- The probability that galaxy `i` is there and is as described is `q`. -/
def Chance (P : Measure Ω) (gs : Ω → List (Galaxy ℝ)) (i : ℕ) (is : Galaxy ℝ → Prop) (q : ℝ) : Prop :=
  NullMeasurableSet {ω | ∃ g, (gs ω)[i]? = some g ∧ is g} P ∧
    P {ω | ∃ g, (gs ω)[i]? = some g ∧ is g} = ENNReal.ofReal q

end Verif.Gal.Spec
