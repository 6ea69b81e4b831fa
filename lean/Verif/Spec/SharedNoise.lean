import Verif.Spec.WhiteNoise

/-!
# One generator for the noise of all detectors
-/

namespace Verif.Inst.Spec

open MeasureTheory ProbabilityTheory

/-- The generator after `n` numbers were drawn. -/
def after {G : Type} (next : G → ℝ × G) : ℕ → G → G
  | 0, g => g
  | n + 1, g => after next n (next g).2

/-- One generator: its numbers follow the standard normal distribution and are independent. -/
structure Stream {Ω G : Type} [MeasurableSpace Ω] (P : Measure Ω) (next : G → ℝ × G) (g : Ω → G) : Prop where
  law : ∀ t, HasLaw (fun ω => draw next t (g ω)) (gaussianReal 0 1) P
  indep : iIndepFun (fun (t : ℕ) ω => draw next t (g ω)) P

/-- The generator `g` is handed from detector to detector and from field to field: each field and detector gets it after
`n` numbers for every field and detector before. -/
def handed {G : Type} (next : G → ℝ × G) (n : ℕ) (fields dets : List Name) (g : G) (f d : Name) : G :=
  after next ((fields.idxOf f * dets.length + dets.idxOf d) * n) g

end Verif.Inst.Spec
