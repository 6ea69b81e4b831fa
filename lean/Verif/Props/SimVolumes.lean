import Verif.Model.SimAll
import Mathlib.Algebra.Order.Field.Basic
import Mathlib.Tactic.FieldSimp
import Mathlib.Tactic.Ring
import Mathlib.Tactic.NormNum

set_option linter.unusedSectionVars false

/-!
# C83: how often a volume fits into the simulation
-/

namespace Verif.SimAll
open Verif.Handler

variable {K : Type} [Field K] [LinearOrder K] [IsStrictOrderedRing K]

/-- `n` boxes of volume `v` fill a cube of edge `box`. -/
def Spec.Fills (n v box : K) : Prop := n * v = box ^ 3

/-- C83 in full: the number returned, times the volume, is the volume of the simulation in
the same units. -/
def C83_full : Prop :=
  ∀ (S : Sim ℚ), 0 < S.boxH → 0 < S.h → ∀ v, 0 < v →
    Spec.Fills (numberVolumes S v (some true)) v S.boxH ∧
    Spec.Fills (numberVolumes S v (some false)) v (S.boxH / S.h)

/-- The result is the inverse of that number: it is right only for the volume of the simulation
itself. -/
theorem C83_inverse (S : Sim K) (hb : 0 < S.boxH) (v : K) (hv : 0 < v) :
    Spec.Fills (1 / numberVolumes S v (some true)) v S.boxH ∧
    (Spec.Fills (numberVolumes S v (some true)) v S.boxH ↔ v = S.boxH ^ 3) := by
  have hb3 : (0 : K) < S.boxH ^ 3 := pow_pos hb 3
  have e : numberVolumes S v (some true) = v / S.boxH ^ 3 := rfl
  unfold Spec.Fills
  rw [e]
  refine ⟨by field_simp, ?_⟩
  constructor
  · intro h
    have h' : v * v = S.boxH ^ 3 * S.boxH ^ 3 := by
      field_simp at h
      rw [← sq, h]; ring
    exact (mul_self_inj hv.le hb3.le).1 h'
  · intro h; subst h; field_simp

/-- The same volume gives the same number in both conventions, and the default is the
simulation's. -/
theorem C83_units_partial (S : Sim K) (hb : 0 < S.boxH) (hh : 0 < S.h) (v : K) :
    numberVolumes S (v * S.h ^ 3) (some true) = numberVolumes S v (some false) ∧
    numberVolumes S v none = numberVolumes S v (some S.inH) := by
  refine ⟨?_, rfl⟩
  simp only [numberVolumes, Option.getD_some, if_true, Bool.false_eq_true, if_false]
  have h1 := hb.ne'
  have h2 := hh.ne'
  field_simp

theorem C83_full_false : ¬ C83_full := by
  intro H
  have := (H ⟨[], [], 1/2, 10, true, none⟩ (by norm_num) (by norm_num) 1 (by norm_num)).1
  rw [(C83_inverse (K := ℚ) _ (by norm_num) 1 (by norm_num)).2] at this
  norm_num at this

example : numberVolumes (⟨[], [], 1/2, 10, true, none⟩ : Sim ℚ) 1 none = 1 / 1000 := by
  norm_num [numberVolumes]

end Verif.SimAll
