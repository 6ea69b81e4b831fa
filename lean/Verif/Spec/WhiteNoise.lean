import Mathlib.Probability.Distributions.Gaussian.Real
import Verif.Model.Observe
import Verif.Model.Response

/-!
# Vocabulary for statements about samples with white noise
-/

namespace Verif.Inst.Spec

open MeasureTheory ProbabilityTheory
open Verif.Map (Grid Arr)

/-- The number `t` (counted from 0) that a generator in state `g` gives. -/
def draw {G : Type} (next : G → ℝ × G) : ℕ → G → ℝ
  | 0, g => (next g).1
  | t + 1, g => draw next t (next g).2

/-- The noise function of detector `d` is `white_noise` with the level `rms` and the offset `bias`. -/
def White {F D G : Type} (lib : Lib F D ℝ G ℝ) (s : State F D (Point ℝ) (Grid ℝ ℝ) (Arr ℝ) (Grid ℝ ℝ) ℝ)
    (next : G → ℝ × G) (d : Name) (rms bias : ℝ) : Prop :=
  ∃ det r, s.detectors.get? d = some det ∧ det.noise = some r ∧ ∀ (n : ℕ) (dt : ℝ) (g : G) (l : List ℝ),
    (whiteNoise next n dt rms bias g).1 = .ok (l.map some) → lib.noise r.fn r.kw n dt g = .ok l

/-- Generators made anew for each field and detector: all their numbers follow the standard normal distribution and
are independent. -/
structure Fresh {Ω G : Type} [MeasurableSpace Ω] (P : Measure Ω) (next : G → ℝ × G) (seed : Ω → Name → Name → G) :
    Prop where
  law : ∀ f d t, HasLaw (fun ω => draw next t (seed ω f d)) (gaussianReal 0 1) P
  indep : iIndepFun (fun (i : Name × Name × ℕ) ω => draw next i.2.2 (seed ω i.1 i.2.1)) P

/-- The samples `out0` (for each field one list per detector) with `z f d t` added to sample `t` of detector `d` in
field `f`; NaN stays NaN. -/
def noisy (dets : List Name) (z : Name → Name → ℕ → ℝ) (out0 : List (Name × List (List (Option ℝ)))) :
    List (Name × List (List (Option ℝ))) :=
  out0.map (fun p => (p.1, (dets.zip p.2).map (fun c => c.2.zipIdx.map (fun e => e.1.map (z p.1 c.1 e.2 + ·)))))

/-- The average of the samples at positions `T` of the detector at place `i` in the list. -/
noncomputable def averageOf (cols : List (List (Option ℝ))) (i : ℕ) (T : Finset ℕ) : ℝ :=
  (∑ t ∈ T, (((cols.getD i []).getD t none).getD 0)) / T.card

end Verif.Inst.Spec
