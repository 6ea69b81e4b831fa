import Verif.Spec.Ready
import Verif.Spec.GalAverage

/-!
# What the ready-made properties are on average
-/

namespace Verif.Ready.Spec

open Verif.Gal (Rng)
open MeasureTheory ProbabilityTheory

/-- The normal numbers and the even ones do not depend on each other. -/
def Separate {Ω G : Type} [MeasurableSpace Ω] (P : Measure Ω) (R : Ω → Rng ℝ G) : Prop :=
  ∀ (n : ℕ) (g g' : G) (i : ℕ), IndepFun (fun ω => ((R ω).normal n g).1.getD i 0)
    (fun ω => ((R ω).uniform n g').1.getD i 0) P

/-- Logarithm to the base 10. -/
noncomputable def lg (x : ℝ) : ℝ := Real.log x / Real.log 10

/-- The published relations, for a halo that is switched on: luminosity, star formation rate or stellar mass
for a mass `m`, a star formation rate `r` and a redshift `z`. -/
noncomputable def published (E : Env ℝ) (m r z : ℝ) : Which → ℝ
  | .coSled => 0
  | .liCo => 10 ^ ((lg (10 ^ 10 * r) + 1.74) / 1.37) * (4.9 / 10 ^ 5)
  | .lidzCo => 2800 * (m / 10 ^ 8)
  | .pullenCo => 10 ^ 6 * m / (5 * 10 ^ 11)
  | .keatingCo => if m < 10 ^ 10 then 0 else 6.3 / 10 ^ 7 * m
  | .gaoHcn => 10 ^ (lg (10 ^ 10 * r) - 2.9) * (2.2 / 10 ^ 5)
  | .breysseHcn => 1.7 / 10 ^ 15 * m ^ (1.67 : ℝ)
  | .deloozeFir => 10 ^ ((lg r + 6.99) / 1.01)
  | .uzgilFir => 10 ^ (0.89 * lg (10 ^ 10 * r * sun) - 2.44) / sun
  | .spinoglioFir => 10 ^ (0.89 * lg (10 ^ 10 * r * sun) - 2.67) / sun
  | .schaererCii => 10 ^ (1.17 * lg r + 6.61)
  | .yangCii =>
    let f := E.yang "CII" z
    2 * 10 ^ f.n * m / ((m / 10 ^ f.m1) ^ (-f.a) + (m / 10 ^ f.m1) ^ f.b)
  | .padmanabhanCii => (m / (2.39 / 10 ^ 5)) ^ (0.49 : ℝ) * Real.exp (-(4.19 * 10 ^ 11) / m) *
      ((1 + z) ^ (2.7 : ℝ) / (1 + ((1 + z) / 2.9) ^ (5.6 : ℝ))) ^ (1.79 : ℝ)
  | .zhaoNii => 10 ^ ((lg (10 ^ 10 * r) - 4.51) / 0.95)
  | .behrooziSfr => E.sfrTable z m
  | .behrooziMass => E.massTable z m

/-- The fraction of halos that are switched on. -/
noncomputable def switchedOn (E : Env ℝ) (m z : ℝ) : Which → ℝ
  | .lidzCo | .breysseHcn => 0.1
  | .pullenCo => min (0.1 / E.age z) 1
  | .yangCii => if z < 4 then
      1 / (1 + (m / 10 ^ (11.73 + 0.6634 * z)) ^ (1.37 - 0.19 * z + 0.0215 * z ^ 2)) else 1
  | _ => 1

/-- The scatter (in dex) of the properties for which the published relation is that of the median. -/
noncomputable def medianScatter (E : Env ℝ) (z : ℝ) : Which → ℝ
  | .keatingCo => 0.3
  | .deloozeFir => 0.42
  | .uzgilFir | .spinoglioFir | .schaererCii | .zhaoNii => 0.4
  | .yangCii => (E.yang "CII" z).sig
  | _ => 0

/-- The average of a ready-made property over all random numbers. -/
noncomputable def onAverage (E : Env ℝ) (p : Which) (m r z : ℝ) : ℝ :=
  switchedOn E m z p * published E m r z p * 10 ^ (medianScatter E z p ^ 2 * Real.log 10 / 2)

/-- The value of halo `i` in a column; NaN does not count (`np.nansum`). -/
noncomputable def shown (col : List (Option ℝ)) (i : ℕ) : ℝ := (col.getD i none).getD 0

end Verif.Ready.Spec
