import Mathlib.Analysis.SpecialFunctions.Complex.Arg
import Mathlib.Analysis.SpecialFunctions.Trigonometric.Inverse
import Verif.Props.LCSphere

/-!
# Sky coordinates of light spheres (C70)
-/

set_option linter.unusedSectionVars false

namespace Verif.LC

open Verif.Sim (Err SnapMeta)

/-- The functions of numpy. -/
structure SphereSettings.Numpy (st : SphereSettings ℝ) : Prop where
  root : st.root = Real.sqrt
  arccos : st.arccos = Real.arccos
  arctan2 : ∀ y x, st.arctan2 y x = Complex.arg ⟨x, y⟩
  pi : st.pi = Real.pi

/-- The unit vector in the direction with right ascension `ra` and declination `dec`. -/
noncomputable def direction (ra dec : ℝ) : Fin 3 → ℝ :=
  ![Real.cos dec * Real.cos ra, Real.cos dec * Real.sin ra, Real.sin dec]

/-- **C70.** The right ascension and declination of an object of a light sphere (not exactly at the
observer) give the direction of its position, in the usual ranges. -/
theorem C70_direction (st : SphereSettings ℝ) (hst : st.Numpy) (sky : Sky ℝ)
    (metas : List (SnapMeta ℝ)) (data : ℕ → SnapData ℝ) (bins : List ℝ) (c : Cone ℝ)
    (h : buildSphere st sky metas data bins = .ok c) (r : Row ℝ) (hr : r ∈ c.rows)
    (hd : Spec.dist2 ![r.posX, r.posY, r.posZ] ≠ 0) :
    ![r.posX, r.posY, r.posZ] =
      Real.sqrt (Spec.dist2 ![r.posX, r.posY, r.posZ]) • direction r.ra r.dec ∧
    0 ≤ r.ra ∧ r.ra < 2 * Real.pi ∧ -(Real.pi / 2) ≤ r.dec ∧ r.dec ≤ Real.pi / 2 := by
  obtain ⟨s, hsu, halos, hl, hr⟩ := sphere_part h r hr
  obtain ⟨n, halo, -, -, -, -, -, -, -, -, -, hra, hdec⟩ := mem_sphereRows hr
  rw [hst.arctan2, hst.pi] at hra
  rw [hst.root, hst.arccos, hst.pi] at hdec
  have hat : sumSq r.at = Spec.dist2 ![r.posX, r.posY, r.posZ] := rfl
  rw [hat] at hdec
  have hx : Spec.dist2 ![r.posX, r.posY, r.posZ] = r.posX ^ 2 + r.posY ^ 2 + r.posZ ^ 2 := rfl
  have hpos : 0 < Spec.dist2 ![r.posX, r.posY, r.posZ] := by
    refine lt_of_le_of_ne ?_ (Ne.symm hd)
    rw [hx]
    positivity
  have hsq := Real.sq_sqrt hpos.le
  have hs0 := Real.sqrt_pos.2 hpos
  generalize Real.sqrt (Spec.dist2 ![r.posX, r.posY, r.posZ]) = d at *
  rw [hx] at hsq
  generalize r.posX = x at *
  generalize r.posY = y at *
  generalize r.posZ = z at *
  have h2pi : (0 : ℝ) < 2 * Real.pi := by linarith [Real.pi_pos]
  -- the declination
  have hzd : -1 ≤ z / d ∧ z / d ≤ 1 := by
    have : |z| ≤ d := abs_le_of_sq_le_sq (by nlinarith [sq_nonneg x, sq_nonneg y]) hs0.le
    rw [← abs_le, abs_div, abs_of_pos hs0]
    exact (div_le_one hs0).2 this
  have hsin : Real.sin r.dec = z / d := by
    rw [hdec, Real.sin_pi_div_two_sub, Real.cos_arccos hzd.1 hzd.2]
  have hcos : Real.cos r.dec = Real.sqrt (1 - (z / d) ^ 2) := by
    rw [hdec, Real.cos_pi_div_two_sub, Real.sin_arccos]
  -- the right ascension
  obtain ⟨m, hm⟩ := pymod_eq (Complex.arg ⟨x, y⟩) (2 * Real.pi)
  have hc1 : Real.cos r.ra = Real.cos (Complex.arg ⟨x, y⟩) := by
    rw [hra, hm, mul_comm, Real.cos_add_int_mul_two_pi]
  have hs1 : Real.sin r.ra = Real.sin (Complex.arg ⟨x, y⟩) := by
    rw [hra, hm, mul_comm, Real.sin_add_int_mul_two_pi]
  have hdcos : d * Real.cos r.dec = ‖(⟨x, y⟩ : ℂ)‖ := by
    rw [hcos, Complex.norm_def, Complex.normSq_mk]
    have hd2 : d = Real.sqrt (d ^ 2) := (Real.sqrt_sq hs0.le).symm
    conv_lhs => rw [hd2]
    rw [← Real.sqrt_sq hs0.le] at hs0
    rw [← Real.sqrt_mul (sq_nonneg d)]
    congr 1
    have hd0 : d ≠ 0 := by
      intro e
      rw [e] at hs0
      simp at hs0
    rw [Real.sqrt_sq (by
      by_contra hneg
      have : d < 0 := not_le.1 hneg
      have := hs0
      nlinarith [sq_nonneg x, sq_nonneg y, sq_nonneg z, Real.sqrt_nonneg (d ^ 2)])]
    field_simp
    nlinarith
  refine ⟨?_, ?_, ?_, ?_, ?_⟩
  · funext a
    have hX : d * (Real.cos r.dec * Real.cos r.ra) = x := by
      rw [← mul_assoc, hdcos, hc1]
      exact Complex.norm_mul_cos_arg ⟨x, y⟩
    have hY : d * (Real.cos r.dec * Real.sin r.ra) = y := by
      rw [← mul_assoc, hdcos, hs1]
      exact Complex.norm_mul_sin_arg ⟨x, y⟩
    have hZ : d * Real.sin r.dec = z := by
      rw [hsin, mul_div_cancel₀ _ hs0.ne']
    fin_cases a
    · exact hX.symm
    · exact hY.symm
    · exact hZ.symm
  · rw [hra]; exact pymod_nonneg h2pi _
  · rw [hra]; exact pymod_lt h2pi _
  · rw [hdec]; linarith [Real.arccos_le_pi (z / d)]
  · rw [hdec]; linarith [Real.arccos_nonneg (z / d)]

end Verif.LC
