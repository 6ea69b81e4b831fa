import Verif.Spec.WhiteNoise

/-!
# Samples of noise alone
-/

namespace Verif.Inst.Spec

/-- Noise alone: for each of the fields and detectors the numbers `z f d t`, one for each of `n` positions. -/
def noiseAlone (fields dets : List Name) (n : ℕ) (z : Name → Name → ℕ → ℝ) : List (Name × List (List (Option ℝ))) :=
  fields.map (fun f => (f, dets.map (fun d => (List.range n).map (fun t => some (z f d t)))))

end Verif.Inst.Spec
