import Mathlib.Tactic.NormNum
import Mathlib.Tactic.Positivity
import Mathlib.Tactic.LinearCombination
import Mathlib.Topology.Algebra.Order.Field
import Mathlib.Analysis.SpecialFunctions.Trigonometric.Bounds
import Mathlib.Analysis.SpecialFunctions.Trigonometric.ArctanDeriv
import Mathlib.Analysis.SpecificLimits.Basic
import Mathlib.MeasureTheory.Measure.OpenPos
import Verif.Model.LCSphere
import Verif.Spec.LosEnds
import Verif.Props.LightConeSky

/-!
# Choosing a line of sight comes to an end (C126)
-/

set_option linter.unusedSectionVars false

namespace Verif.LC

open Verif.Sim (Err SnapMeta)
open Spec (Drawn Room)

/-- A result needs a draw that passes the second test. -/
theorem pick_needs_B {radius box far : ℝ} {copies : ℕ} {draws : List (Vec ℝ)} {v : Vec ℝ}
    {a : Bool} (h : pickLos radius box far copies a false draws = some v) :
    ∃ w ∈ draws, testB radius w := by
  induction draws generalizing a with
  | nil => simp [pickLos] at h
  | cons w rest ih =>
    by_cases hB : testB radius w
    · exact ⟨w, List.mem_cons_self, hB⟩
    · unfold pickLos at h
      simp only [hB, decide_false, Bool.or_self, Bool.and_false, Bool.false_eq_true, if_false] at h
      obtain ⟨x, hx, hx'⟩ := ih h
      exact ⟨x, List.mem_cons_of_mem _ hx, hx'⟩

/-- No direction passes the second test when the radius is 15 degrees or more. -/
theorem not_testB {radius : ℝ} (h1 : Real.pi / 12 ≤ radius) (h2 : radius < Real.pi / 3)
    {v : Vec ℝ} (hv : ∀ a, 0 ≤ v a) : ¬ testB radius v := by
  have hpi := Real.pi_pos
  rintro ⟨h0, hl, hu⟩
  have hx : 0 ≤ v 0 / v 2 := div_nonneg (hv 0) (hv 2)
  rcases lt_trichotomy radius (Real.pi / 6) with h | h | h
  · have : Real.tan (Real.pi / 2 - 3 * radius) ≤ Real.tan (3 * radius) := by
      rcases h1.eq_or_lt with he | hlt
      · rw [← he]
        apply le_of_eq
        congr 1
        ring
      · exact (tan_lt (by linarith) (by linarith) (by linarith)).le
    linarith
  · rw [h, show Real.pi / 2 - 3 * (Real.pi / 6) = 0 by ring, Real.tan_zero] at hu
    linarith
  · have : Real.tan (Real.pi / 2 - 3 * radius) < 0 :=
      Real.tan_neg_of_neg_of_pi_div_two_lt (by linarith) (by linarith)
    linarith

/-- A direction with a vanishing component is refused. -/
theorem geom_pos {radius box far : ℝ} {copies : ℕ} {v : Vec ℝ} (hv : ∀ a, 0 ≤ v a)
    (h : testGeom radius box far copies v) : ∀ a, 0 < v a := by
  have hu : ∀ a, 0 ≤ unit v a := fun a => div_nonneg (hv a) (Real.sqrt_nonneg _)
  have hr : ∀ a b, 0 ≤ Real.arctan (unit v a / unit v b) := fun a b => by
    rw [← Real.arctan_zero]
    exact Real.arctan_strictMono.monotone (div_nonneg (hu a) (hu b))
  have hm : 0 ≤ minAngle (unit v) := by
    unfold minAngle
    simp only [le_min_iff]
    exact ⟨⟨⟨hr _ _, hr _ _⟩, hr _ _⟩, ⟨hr _ _, hr _ _⟩, hr _ _⟩
  intro a
  rcases (hv a).lt_or_eq with h' | h'
  · exact h'
  · exfalso
    have h0 : unit v a = 0 := by
      unfold unit
      rw [← h', zero_div]
    have : minAngle (unit v) ≤ 0 := by
      unfold minAngle
      fin_cases a
      · refine (min_le_right _ _).trans ((min_le_left _ _).trans ((min_le_left _ _).trans ?_))
        simp only [Fin.zero_eta] at h0
        rw [h0, zero_div, Real.arctan_zero]
      · refine (min_le_left _ _).trans ((min_le_left _ _).trans ((min_le_left _ _).trans ?_))
        simp only [Fin.mk_one] at h0
        rw [h0, zero_div, Real.arctan_zero]
      · refine (min_le_left _ _).trans ((min_le_left _ _).trans ((min_le_right _ _).trans ?_))
        simp only [Fin.reduceFinMk] at h0
        rw [h0, zero_div, Real.arctan_zero]
    apply h.1
    rw [le_antisymm this hm, Real.sin_zero]

/-- The smallest angle is at most 45 degrees. -/
theorem minAngle_le {u : Vec ℝ} (h : ∀ a, 0 < u a) : minAngle u ≤ Real.pi / 4 := by
  have key : ∀ x y : ℝ, 0 < y → x ≤ y → Real.arctan (x / y) ≤ Real.pi / 4 := fun x y hy hxy => by
    rw [← Real.arctan_one]
    exact Real.arctan_strictMono.monotone ((div_le_one hy).2 hxy)
  unfold minAngle
  rcases le_total (u 1) (u 0) with h' | h'
  · exact (min_le_left _ _).trans ((min_le_left _ _).trans ((min_le_left _ _).trans
      (key _ _ (h 0) h')))
  · exact (min_le_right _ _).trans ((min_le_left _ _).trans ((min_le_left _ _).trans
      (key _ _ (h 1) h')))

theorem sin_minAngle_le {u : Vec ℝ} (h : ∀ a, 0 < u a) :
    Real.sin (minAngle u) ≤ Real.sqrt 2 / 2 := by
  rw [← Real.sin_pi_div_four]
  exact Real.sin_le_sin_of_le_of_le_pi_div_two (by linarith [minAngle_pos h, Real.pi_pos])
    (by linarith [Real.pi_pos]) (minAngle_le h)

/-- The largest component of a unit vector is at least `1/√3`. -/
theorem le_maxComp_unit {u : Vec ℝ} (h : ∀ a, 0 < u a) (h1 : sumSq u = 1) :
    1 ≤ Real.sqrt 3 * maxComp u := by
  have hm : 0 < maxComp u := lt_of_lt_of_le (h 0) (le_maxComp u 0)
  have h3 : Real.sqrt 3 ^ 2 = 3 := Real.sq_sqrt (by norm_num)
  have hsq : ∀ a, u a ^ 2 ≤ maxComp u ^ 2 := fun a =>
    pow_le_pow_left₀ (h a).le (le_maxComp u a) 2
  have hsum : 1 ≤ 3 * maxComp u ^ 2 := by
    have e : sumSq u = u 0 ^ 2 + u 1 ^ 2 + u 2 ^ 2 := rfl
    have := hsq 0
    have := hsq 1
    have := hsq 2
    linarith
  have : (1 : ℝ) ^ 2 ≤ (Real.sqrt 3 * maxComp u) ^ 2 := by
    rw [mul_pow, h3]
    linarith
  exact le_of_sq_le_sq this (by positivity)

/-- No direction has more room than the diagonal. -/
theorem geom_room {radius box far : ℝ} {copies : ℕ} {v : Vec ℝ} (hr : 0 ≤ Real.tan radius)
    (hb : 0 ≤ box) (hf : 0 ≤ far) (hv : ∀ a, 0 ≤ v a)
    (h : testGeom radius box far copies v) :
    10 < copies * (Real.sqrt 3 * box) - 2 * (1.01 * Real.tan radius * Real.sqrt 2 * far) := by
  have hvp := geom_pos hv h
  have hs := sumSq_pos (hvp 0)
  have hup : ∀ a, 0 < unit v a := fun a => unit_pos hs (hvp a)
  have hsin := sin_minAngle_pos hup
  have hsin' := sin_minAngle_le hup
  have hm : 0 < maxComp (unit v) := lt_of_lt_of_le (hup 0) (le_maxComp _ 0)
  have hm' := le_maxComp_unit hup (unit_sumSq hs)
  have h2 : Real.sqrt 2 * Real.sqrt 2 = 2 := Real.mul_self_sqrt (by norm_num)
  have h2p : 0 < Real.sqrt 2 := Real.sqrt_pos.2 (by norm_num)
  have e1 : box / maxComp (unit v) ≤ Real.sqrt 3 * box := by
    rw [div_le_iff₀ hm]
    nlinarith
  have e2 : 1.01 * Real.tan radius * Real.sqrt 2 ≤ bufferCoef radius (unit v) := by
    unfold bufferCoef
    rw [le_div_iff₀ hsin]
    have : Real.sqrt 2 * Real.sin (minAngle (unit v)) ≤ 1 := by nlinarith
    have h0 : 0 ≤ 1.01 * Real.tan radius := by positivity
    nlinarith
  have e3 : (copies : ℝ) * (box / maxComp (unit v)) ≤ copies * (Real.sqrt 3 * box) :=
    mul_le_mul_of_nonneg_left e1 (Nat.cast_nonneg _)
  have e4 : 1.01 * Real.tan radius * Real.sqrt 2 * far ≤ bufferCoef radius (unit v) * far :=
    mul_le_mul_of_nonneg_right e2 hf
  have := h.2
  linarith

/-- A draw that passes only the first test. -/
noncomputable def firstOnly : Vec ℝ := ![1 / (2 * Real.sqrt 3), 1 / 2, 0]

/-- The diagonal. -/
noncomputable def diagonal : Vec ℝ := ![1 / 2, 1 / 2, 1 / 2]

theorem tan_thirty : Real.tan (Real.pi / 6) = 1 / Real.sqrt 3 := Real.tan_pi_div_six

theorem firstOnly_drawn : Drawn firstOnly := by
  have h3 : 1 < Real.sqrt 3 := by
    rw [Real.lt_sqrt (by norm_num)]
    norm_num
  intro a
  unfold firstOnly
  fin_cases a
  · refine ⟨by simp, ?_⟩
    show 1 / (2 * Real.sqrt 3) < 1
    rw [div_lt_one (by positivity)]
    linarith
  · simp
    norm_num
  · simp

theorem diagonal_drawn : Drawn diagonal := by
  intro a
  unfold diagonal
  fin_cases a <;> norm_num

theorem testA_ratio {radius : ℝ} (h0 : 0 < radius) (h1 : radius < Real.pi / 12) {v : Vec ℝ}
    (hv : v 1 ≠ 0) (hr : v 0 / v 1 = 1 / Real.sqrt 3) : testA radius v := by
  have hpi := Real.pi_pos
  refine ⟨hv, ?_, ?_⟩
  · rw [hr, ← tan_thirty]
    exact tan_lt (by linarith) (by linarith) (by linarith)
  · rw [hr, ← tan_thirty]
    exact tan_lt (by linarith) (by linarith) (by linarith)

theorem firstOnly_A {radius : ℝ} (h0 : 0 < radius) (h1 : radius < Real.pi / 12) :
    testA radius firstOnly := by
  apply testA_ratio h0 h1
  · simp [firstOnly]
  · show 1 / (2 * Real.sqrt 3) / (1 / 2) = _
    have : Real.sqrt 3 ≠ 0 := by positivity
    field_simp

theorem firstOnly_B {radius : ℝ} : ¬ testB radius firstOnly := by
  rintro ⟨h, -⟩
  exact h rfl

theorem diagonal_B {radius : ℝ} (h0 : 0 < radius) (h1 : radius < Real.pi / 12) :
    testB radius diagonal := by
  have hpi := Real.pi_pos
  have e : diagonal 0 / diagonal 2 = 1 := by
    show (1 / 2 : ℝ) / (1 / 2) = 1
    norm_num
  refine ⟨by simp [diagonal], ?_, ?_⟩
  · rw [e, ← Real.tan_pi_div_four]
    exact tan_lt (by linarith) (by linarith) (by linarith)
  · rw [e, ← Real.tan_pi_div_four]
    exact tan_lt (by linarith) (by linarith) (by linarith)

theorem unit_diagonal : ∀ a, unit diagonal a = 1 / Real.sqrt 3 := by
  have hs : Real.sqrt (sumSq diagonal) = Real.sqrt 3 / 2 := by
    have : sumSq diagonal = (Real.sqrt 3 / 2) ^ 2 := by
      rw [div_pow, Real.sq_sqrt (by norm_num)]
      show (1 / 2 : ℝ) ^ 2 + (1 / 2) ^ 2 + (1 / 2) ^ 2 = _
      norm_num
    rw [this, Real.sqrt_sq (by positivity)]
  have h3 : Real.sqrt 3 ≠ 0 := by positivity
  have hd : ∀ a, diagonal a = 1 / 2 := by
    intro a
    unfold diagonal
    fin_cases a <;> rfl
  intro a
  unfold unit
  rw [hs, hd]
  field_simp

theorem diagonal_geom {radius box far : ℝ} {copies : ℕ}
    (h : 10 < copies * (Real.sqrt 3 * box) - 2 * (1.01 * Real.tan radius * Real.sqrt 2 * far)) :
    testGeom radius box far copies diagonal := by
  have h3 : 0 < Real.sqrt 3 := by positivity
  have h2 : 0 < Real.sqrt 2 := by positivity
  have h22 : Real.sqrt 2 * Real.sqrt 2 = 2 := Real.mul_self_sqrt (by norm_num)
  have hm : minAngle (unit diagonal) = Real.pi / 4 := by
    unfold minAngle
    simp only [unit_diagonal, div_self (one_div_pos.2 h3).ne', Real.arctan_one, min_self]
  have hmax : maxComp (unit diagonal) = 1 / Real.sqrt 3 := by
    unfold maxComp
    simp only [unit_diagonal, max_self]
  refine ⟨?_, ?_⟩
  · rw [hm, Real.sin_pi_div_four]
    positivity
  · have e : bufferCoef radius (unit diagonal) = 1.01 * Real.tan radius * Real.sqrt 2 := by
      unfold bufferCoef
      rw [hm, Real.sin_pi_div_four, div_eq_iff (by positivity)]
      linear_combination (-(1.01 * Real.tan radius / 2)) * h22
    rw [e, hmax]
    have : box / (1 / Real.sqrt 3) = Real.sqrt 3 * box := by
      field_simp
    rw [this]
    exact h

/-- C126: some sequence of random numbers gives a line of sight exactly if there is room for the
cone along the diagonal and its radius is less than 15 degrees. -/
theorem C126_iff (radius box far : ℝ) (copies : ℕ) (hr : 0 < radius) (hr' : radius < Real.pi / 3)
    (hb : 0 ≤ box) (hf : 0 ≤ far) :
    (∃ draws : List (Vec ℝ), (∀ v ∈ draws, Drawn v) ∧
      pickLos radius box far copies false false draws ≠ none) ↔ Room radius box far copies := by
  have hpi := Real.pi_pos
  constructor
  · rintro ⟨draws, hd, h⟩
    obtain ⟨v, hv⟩ := Option.ne_none_iff_exists'.1 h
    obtain ⟨w, hw, hB⟩ := pick_needs_B hv
    obtain ⟨hm, hg⟩ := C67_room_partial _ _ _ _ _ _ _ _ hv
    have hlt : radius < Real.pi / 12 := by
      by_contra hc
      exact not_testB (not_lt.1 hc) hr' (fun a => (hd w hw a).1) hB
    exact ⟨hlt, geom_room (Real.tan_pos_of_pos_of_lt_pi_div_two hr (by linarith)).le hb hf
      (fun a => (hd v hm a).1) hg⟩
  · rintro ⟨h1, h2⟩
    refine ⟨[firstOnly, diagonal], ?_, ?_⟩
    · intro v hv
      simp only [List.mem_cons, List.not_mem_nil, or_false] at hv
      rcases hv with rfl | rfl
      · exact firstOnly_drawn
      · exact diagonal_drawn
    · rw [C67_flags_kept _ _ _ _ _ _ _ (firstOnly_A hr h1) firstOnly_B (diagonal_B hr h1)
        (diagonal_geom h2)]
      simp

/-- Draws that pass the first test but not the second. -/
def FirstOpen (radius : ℝ) : Set (Vec ℝ) :=
  {v | (0 < v 1 ∧ 0 < v 2) ∧ (Real.tan (radius + Real.pi / 180) * v 1 < v 0 ∧
    v 0 < Real.tan (Real.pi / 2 - 3 * radius - Real.pi / 180) * v 1) ∧
    Real.tan (Real.pi / 2 - 3 * radius) * v 2 < v 0}

theorem firstOpen_open (radius : ℝ) : IsOpen (FirstOpen radius) := by
  have c : ∀ a : Fin 3, Continuous (fun v : Vec ℝ => v a) := fun a => continuous_apply a
  have c' : ∀ (t : ℝ) (a : Fin 3), Continuous (fun v : Vec ℝ => t * v a) :=
    fun t a => continuous_const.mul (c a)
  exact ((isOpen_lt continuous_const (c 1)).inter (isOpen_lt continuous_const (c 2))).inter
    (((isOpen_lt (c' _ 1) (c 0)).inter (isOpen_lt (c 0) (c' _ 1))).inter
      (isOpen_lt (c' _ 2) (c 0)))

theorem firstOpen_A {radius : ℝ} {v : Vec ℝ} (h : v ∈ FirstOpen radius) : testA radius v := by
  obtain ⟨⟨h1, -⟩, ⟨h2, h3⟩, -⟩ := h
  exact ⟨h1.ne', (lt_div_iff₀ h1).2 h2, (div_lt_iff₀ h1).2 h3⟩

theorem firstOpen_B {radius : ℝ} {v : Vec ℝ} (h : v ∈ FirstOpen radius) : ¬ testB radius v := by
  obtain ⟨⟨-, h1⟩, -, h2⟩ := h
  rintro ⟨-, -, h3⟩
  rw [div_lt_iff₀ h1] at h3
  linarith

/-- The cube from which directions are drawn, without its faces. -/
def cube : Set (Vec ℝ) := Set.univ.pi (fun _ => Set.Ioo 0 1)

theorem cube_open : IsOpen cube := isOpen_set_pi Set.finite_univ (fun _ _ => isOpen_Ioo)

theorem firstOpen_nonempty {radius : ℝ} (h0 : 0 < radius) (h1 : radius < Real.pi / 12) :
    (FirstOpen radius ∩ cube).Nonempty := by
  have hpi := Real.pi_pos
  have h3 : 1 < Real.sqrt 3 := by
    rw [Real.lt_sqrt (by norm_num)]
    norm_num
  obtain ⟨-, hA1, hA2⟩ := firstOnly_A h0 h1
  have ht : 0 < Real.tan (Real.pi / 2 - 3 * radius) :=
    Real.tan_pos_of_pos_of_lt_pi_div_two (by linarith) (by linarith)
  obtain ⟨t, htd⟩ : ∃ t, t = Real.tan (Real.pi / 2 - 3 * radius) := ⟨_, rfl⟩
  rw [← htd] at ht
  have hx : 0 < 1 / (2 * Real.sqrt 3) := by positivity
  have hx1 : 1 / (2 * Real.sqrt 3) < 1 := by
    rw [div_lt_one (by positivity)]
    linarith
  have hz : 0 < 1 / (2 * Real.sqrt 3) / (t + 1) := by positivity
  have hz1 : 1 / (2 * Real.sqrt 3) / (t + 1) < 1 := by
    rw [div_lt_one (by positivity)]
    linarith
  have e : firstOnly 0 / firstOnly 1 = 1 / (2 * Real.sqrt 3) / (1 / 2) := rfl
  rw [e, lt_div_iff₀ (by norm_num)] at hA1
  rw [e, div_lt_iff₀ (by norm_num)] at hA2
  refine ⟨![1 / (2 * Real.sqrt 3), 1 / 2, 1 / (2 * Real.sqrt 3) / (t + 1)],
    ⟨⟨by simp, hz⟩, ⟨hA1, hA2⟩, ?_⟩, ?_⟩
  · show Real.tan (Real.pi / 2 - 3 * radius) * (1 / (2 * Real.sqrt 3) / (t + 1)) <
      1 / (2 * Real.sqrt 3)
    rw [← htd, ← mul_div_assoc, div_lt_iff₀ (by positivity)]
    nlinarith
  · intro a _
    fin_cases a
    · exact ⟨hx, hx1⟩
    · constructor <;> simp <;> norm_num
    · exact ⟨hz, hz1⟩

theorem unit_continuousAt (a : Fin 3) : ContinuousAt (fun v : Vec ℝ => unit v a) diagonal := by
  have hs : Real.sqrt (sumSq diagonal) ≠ 0 := by
    rw [Real.sqrt_ne_zero']
    exact sumSq_pos (by simp [diagonal])
  unfold unit
  apply ContinuousAt.div (continuous_apply a).continuousAt _ hs
  apply (Real.continuous_sqrt.comp _).continuousAt
  unfold sumSq
  exact (((continuous_apply 0).pow 2).add ((continuous_apply 1).pow 2)).add
    ((continuous_apply 2).pow 2)

theorem minAngle_continuousAt :
    ContinuousAt (fun v : Vec ℝ => minAngle (unit v)) diagonal := by
  have h : ∀ a b : Fin 3, ContinuousAt (fun v : Vec ℝ => Real.arctan (unit v a / unit v b))
      diagonal := by
    intro a b
    apply Real.continuous_arctan.continuousAt.comp
    apply (unit_continuousAt a).div (unit_continuousAt b)
    rw [unit_diagonal]
    positivity
  unfold minAngle
  exact (((h 1 0).min (h 2 0)).min (h 2 1)).min (((h 0 1).min (h 0 2)).min (h 1 2))

/-- Directions near the diagonal are accepted. -/
theorem near_diagonal {radius box far : ℝ} {copies : ℕ} (h0 : 0 < radius)
    (h : Room radius box far copies) :
    ∃ U : Set (Vec ℝ), IsOpen U ∧ (U ∩ cube).Nonempty ∧
      ∀ v ∈ U, testB radius v ∧ testGeom radius box far copies v := by
  obtain ⟨h1, h2⟩ := h
  obtain ⟨-, hB1, hB2⟩ := diagonal_B h0 h1
  obtain ⟨hG1, hG2⟩ := diagonal_geom h2
  have hd2 : diagonal 2 ≠ 0 := by simp [diagonal]
  have c2 : ContinuousAt (fun v : Vec ℝ => v 2) diagonal := (continuous_apply 2).continuousAt
  have cr : ContinuousAt (fun v : Vec ℝ => v 0 / v 2) diagonal :=
    (continuous_apply 0).continuousAt.div c2 hd2
  have cs : ContinuousAt (fun v : Vec ℝ => Real.sin (minAngle (unit v))) diagonal :=
    Real.continuous_sin.continuousAt.comp minAngle_continuousAt
  have cm : ContinuousAt (fun v : Vec ℝ => maxComp (unit v)) diagonal := by
    unfold maxComp
    exact ((unit_continuousAt 0).max (unit_continuousAt 1)).max (unit_continuousAt 2)
  have hm : maxComp (unit diagonal) ≠ 0 := by
    unfold maxComp
    simp only [unit_diagonal, max_self]
    positivity
  have cb : ContinuousAt (fun v : Vec ℝ => bufferCoef radius (unit v)) diagonal := by
    unfold bufferCoef
    exact continuousAt_const.div cs hG1
  have cg : ContinuousAt (fun v : Vec ℝ => copies * (box / maxComp (unit v)) -
      2 * (bufferCoef radius (unit v) * far)) diagonal :=
    (continuousAt_const.mul (continuousAt_const.div cm hm)).sub
      (continuousAt_const.mul (cb.mul continuousAt_const))
  have hev : ∀ᶠ v in nhds diagonal, testB radius v ∧ testGeom radius box far copies v := by
    filter_upwards [c2.eventually_ne hd2, cr.eventually_const_lt hB1, cr.eventually_lt_const hB2,
      cs.eventually_ne hG1, cg.eventually_const_lt hG2] with v a1 a2 a3 a4 a5
    exact ⟨⟨a1, a2, a3⟩, a4, a5⟩
  obtain ⟨U, hU, hUo, hdU⟩ := eventually_nhds_iff.1 hev
  refine ⟨U, hUo, ⟨diagonal, hdU, ?_⟩, hU⟩
  intro a _
  unfold diagonal
  fin_cases a <;> norm_num

/-- Whatever was drawn before, two draws passing only the first test and one passing the second
test and leaving enough room end the search. -/
theorem pick_ends {radius box far : ℝ} {copies : ℕ} {v w d : Vec ℝ} (hv : testA radius v)
    (hv' : ¬ testB radius v) (hw : testA radius w) (hw' : ¬ testB radius w)
    (hd : testB radius d) (hg : testGeom radius box far copies d) (l rest : List (Vec ℝ))
    (a b : Bool) :
    pickLos radius box far copies a b (l ++ v :: w :: d :: rest) ≠ none := by
  have hlast : ∀ b', pickLos radius box far copies true b' (d :: rest) ≠ none := by
    intro b'
    unfold pickLos
    simp [hd, hg]
  have hmid : ∀ a', pickLos radius box far copies a' false (w :: d :: rest) ≠ none := by
    intro a'
    unfold pickLos
    simp only [hw, hw', decide_true, decide_false, Bool.or_true, Bool.or_self, Bool.and_false,
      Bool.false_eq_true, if_false]
    exact hlast false
  induction l generalizing a b with
  | nil =>
    rw [List.nil_append]
    unfold pickLos
    simp only [hv, hv', decide_true, decide_false, Bool.or_true, Bool.or_false, Bool.true_and]
    split
    · split
      · simp
      · exact hmid false
    · rename_i hb
      rw [Bool.not_eq_true] at hb
      rw [hb]
      exact hmid true
  | cons x l ih =>
    rw [List.cons_append]
    unfold pickLos
    simp only
    split
    · split
      · simp
      · exact ih _ _
    · exact ih _ _

open MeasureTheory in
instance : IsProbabilityMeasure ((volume : Measure ℝ).restrict (Set.Ico 0 1)) :=
  ⟨by rw [Measure.restrict_apply_univ, Real.volume_Ico]; simp⟩

open MeasureTheory in
instance : IsProbabilityMeasure Spec.drawMeasure := by
  unfold Spec.drawMeasure
  infer_instance

open MeasureTheory in
theorem drawMeasure_pos {U : Set (Vec ℝ)} (hU : IsOpen U) (h : (U ∩ cube).Nonempty) :
    Spec.drawMeasure U ≠ 0 := by
  have hc : 0 < (volume : Measure (Vec ℝ)) (U ∩ cube) := (hU.inter cube_open).measure_pos _ h
  unfold Spec.drawMeasure
  rw [← Measure.restrict_pi_pi, ← volume_pi, Measure.restrict_apply hU.measurableSet]
  refine (lt_of_lt_of_le hc (measure_mono ?_)).ne'
  exact Set.inter_subset_inter_right _ (Set.pi_mono (fun _ _ => Set.Ioo_subset_Ico_self))

open MeasureTheory in
/-- C126: if there is room, the probability that no line of sight has been found after `3 k` draws
goes to zero as `k` grows. -/
theorem C126_almost_surely (radius box far : ℝ) (copies : ℕ) (hr : 0 < radius)
    (h : Room radius box far copies) :
    Filter.Tendsto (fun k => Spec.drawsMeasure k
      {t | pickLos radius box far copies false false (Spec.inOrder t) = none})
      Filter.atTop (nhds 0) := by
  obtain ⟨D, hDo, hDn, hD⟩ := near_diagonal hr h
  have hW := firstOpen_nonempty hr h.1
  have hWo := firstOpen_open radius
  have hB : ∀ v ∈ FirstOpen radius, testA radius v ∧ ¬ testB radius v :=
    fun v hv => ⟨firstOpen_A hv, firstOpen_B hv⟩
  generalize FirstOpen radius = W at hW hWo hB
  let S : Set (Fin 3 → Vec ℝ) := Set.univ.pi ![W, W, D]
  have hSm : MeasurableSet S := by
    apply MeasurableSet.univ_pi
    intro i
    fin_cases i
    · exact hWo.measurableSet
    · exact hWo.measurableSet
    · exact hDo.measurableSet
  have hS : (Measure.pi (fun _ : Fin 3 => Spec.drawMeasure)) S ≠ 0 := by
    rw [Measure.pi_pi, Fin.prod_univ_three]
    exact mul_ne_zero (mul_ne_zero (drawMeasure_pos hWo hW) (drawMeasure_pos hWo hW))
      (drawMeasure_pos hDo hDn)
  have hlt : (Measure.pi (fun _ : Fin 3 => Spec.drawMeasure)) Sᶜ < 1 := by
    rw [prob_compl_eq_one_sub hSm]
    exact ENNReal.sub_lt_self ENNReal.one_ne_top one_ne_zero hS
  have hsub : ∀ k : ℕ, {t : Fin k → Fin 3 → Fin 3 → ℝ |
      pickLos radius box far copies false false (Spec.inOrder t) = none} ⊆
        Set.univ.pi (fun _ => Sᶜ) := by
    intro k t ht i _ hi
    refine absurd ht ?_
    show pickLos _ _ _ _ _ _ _ ≠ none
    have e : ∃ l rest, Spec.inOrder t = l ++ t i 0 :: t i 1 :: t i 2 :: rest := by
      have hmem : List.ofFn (t i) ∈ List.ofFn (fun i => List.ofFn (t i)) :=
        List.mem_ofFn.2 ⟨i, rfl⟩
      obtain ⟨l1, l2, hl⟩ := List.append_of_mem hmem
      refine ⟨l1.flatten, l2.flatten, ?_⟩
      unfold Spec.inOrder
      rw [hl, List.flatten_append, List.flatten_cons]
      rfl
    obtain ⟨l, rest, e⟩ := e
    rw [e]
    have a0 := hB _ (hi 0 trivial)
    have a1 := hB _ (hi 1 trivial)
    have a2 := hD _ (hi 2 trivial)
    exact pick_ends a0.1 a0.2 a1.1 a1.2 a2.1 a2.2 l rest _ _
  refine tendsto_of_tendsto_of_tendsto_of_le_of_le tendsto_const_nhds
    (ENNReal.tendsto_pow_atTop_nhds_zero_of_lt_one hlt) (fun _ => zero_le) ?_
  intro k
  refine (measure_mono (hsub k)).trans (le_of_eq ?_)
  unfold Spec.drawsMeasure
  rw [Measure.pi_pi]
  simp

/-- The requests accepted by `LCMaker`, with the largest distance of the snapshots used at least
that of the highest redshift. -/
structure Accepted (st : Settings ℝ) (transverse far : ℝ) : Prop where
  checked : coneCheck st true transverse = .ok ()
  angle : 0 < st.angle
  aspect : 0 < st.aspect
  box : 0 < st.box
  copies : 0 < st.copiesMax
  near : 0 ≤ transverse
  far : transverse ≤ far

/-- C126 in full: for every accepted request some sequence of random numbers gives a line of
sight. -/
def C126_full : Prop :=
  ∀ (st : Settings ℝ) (transverse far : ℝ), Accepted st transverse far →
    ∃ draws : List (Vec ℝ), (∀ v ∈ draws, Drawn v) ∧
      pickLos (openRadius st) st.box far st.copiesMax false false draws ≠ none

theorem square_radius {st : Settings ℝ} (hm : st.mode = .box) (ha : st.aspect = 1)
    (h0 : 0 < st.angle) : openRadius st = st.angle * Real.sqrt 2 / 2 := by
  unfold openRadius
  rw [hm]
  simp only
  rw [ha, mul_one, show st.angle ^ 2 + st.angle ^ 2 = st.angle ^ 2 * 2 by ring,
    Real.sqrt_mul (by positivity), Real.sqrt_sq h0.le]

/-- C126: without copies of the box no square lightcone whose side at its far end is more than
0.86 of the box has a line of sight: the search never ends, whatever is drawn. -/
theorem C126_square_fails (st : Settings ℝ) (far : ℝ) (hm : st.mode = .box) (ha : st.aspect = 1)
    (h0 : 0 < st.angle) (h1 : st.angle < 1) (hb : 0 < st.box) (hc : st.copiesMax = 1)
    (hlarge : 0.86 * st.box ≤ far * st.angle) (draws : List (Vec ℝ))
    (hd : ∀ v ∈ draws, Drawn v) :
    pickLos (openRadius st) st.box far st.copiesMax false false draws = none := by
  have h2 : Real.sqrt 2 * Real.sqrt 2 = 2 := Real.mul_self_sqrt (by norm_num)
  have h2p : 0 < Real.sqrt 2 := by positivity
  have h2l : Real.sqrt 2 < 1.5 := by
    rw [Real.sqrt_lt' (by norm_num)]
    norm_num
  have h3l : Real.sqrt 3 < 1.7372 := by
    rw [Real.sqrt_lt' (by norm_num)]
    norm_num
  have hfar : 0 < far := by
    by_contra hcon
    have : far * st.angle ≤ 0 := mul_nonpos_of_nonpos_of_nonneg (not_lt.1 hcon) h0.le
    nlinarith
  have hpi := Real.pi_gt_three
  have hR := square_radius hm ha h0
  have hr0 : 0 < openRadius st := by
    rw [hR]
    positivity
  have hr1 : openRadius st < Real.pi / 3 := by
    rw [hR]
    nlinarith
  by_contra hne
  obtain ⟨-, hroom⟩ := (C126_iff (openRadius st) st.box far st.copiesMax hr0 hr1 hb.le hfar.le).1
    ⟨draws, hd, hne⟩
  have htan : openRadius st < Real.tan (openRadius st) := Real.lt_tan hr0 (by linarith)
  rw [hc] at hroom
  have hkey : st.angle * far ≤ Real.tan (openRadius st) * Real.sqrt 2 * far := by
    apply mul_le_mul_of_nonneg_right _ hfar.le
    have : openRadius st * Real.sqrt 2 = st.angle := by
      rw [hR]
      linear_combination (st.angle / 2) * h2
    nlinarith
  push_cast at hroom
  nlinarith

/-- C126: no lightcone with a radius between 15 and 60 degrees has a line of sight. -/
theorem C126_wide_fails (st : Settings ℝ) (far : ℝ) (hb : 0 ≤ st.box) (hf : 0 ≤ far)
    (h1 : Real.pi / 12 ≤ openRadius st) (h2 : openRadius st < Real.pi / 3)
    (draws : List (Vec ℝ)) (hd : ∀ v ∈ draws, Drawn v) :
    pickLos (openRadius st) st.box far st.copiesMax false false draws = none := by
  by_contra hne
  have := ((C126_iff _ _ far st.copiesMax (by linarith [Real.pi_pos]) h2 hb hf).1 ⟨draws, hd, hne⟩).1
  linarith

/-- There is room for every round lightcone of less than 30 degrees whose diameter at the far end
fits in a box of at least 40 Mpc/h. -/
theorem circle_room (st : Settings ℝ) (far : ℝ) (hm : st.mode = .circle)
    (h0 : 0 < st.angle) (h1 : st.angle < Real.pi / 6) (hb : 40 ≤ st.box) (hc : 0 < st.copiesMax)
    (hf : 0 ≤ far) (hfit : far * st.angle ≤ st.box) :
    Room (openRadius st) st.box far st.copiesMax := by
  have hR : openRadius st = st.angle / 2 := by
    unfold openRadius
    rw [hm]
  have hpi := Real.pi_lt_d2
  have hpi0 := Real.pi_gt_three
  have h2p : 0 < Real.sqrt 2 := by positivity
  have h2l : Real.sqrt 2 < 1.415 := by
    rw [Real.sqrt_lt' (by norm_num)]
    norm_num
  have h3l : 1.732 < Real.sqrt 3 := by
    rw [Real.lt_sqrt (by norm_num)]
    norm_num
  rw [hR]
  refine ⟨by linarith, ?_⟩
  have hx0 : 0 < st.angle / 2 := by linarith
  have hx1 : st.angle / 2 < 0.2625 := by linarith
  have hcos : 0.9655 ≤ Real.cos (st.angle / 2) := by
    have := Real.one_sub_sq_div_two_le_cos (x := st.angle / 2)
    nlinarith
  have htan : Real.tan (st.angle / 2) ≤ 1.036 * (st.angle / 2) := by
    rw [Real.tan_eq_sin_div_cos, div_le_iff₀ (by linarith)]
    have := (Real.sin_lt hx0).le
    nlinarith
  have htan0 : 0 < Real.tan (st.angle / 2) :=
    Real.tan_pos_of_pos_of_lt_pi_div_two hx0 (by linarith)
  have hkey : Real.tan (st.angle / 2) * far ≤ 0.518 * st.box := by
    have := mul_le_mul_of_nonneg_right htan hf
    nlinarith
  have hk0 : 0 ≤ Real.tan (st.angle / 2) * far := by positivity
  have hkey2 : Real.tan (st.angle / 2) * far * Real.sqrt 2 ≤ 0.518 * st.box * 1.415 :=
    mul_le_mul hkey h2l.le h2p.le (by linarith)
  have hcm : (1 : ℝ) ≤ st.copiesMax := by exact_mod_cast hc
  have hbox : 0 ≤ Real.sqrt 3 * st.box := by positivity
  have hbox2 : 1.732 * st.box ≤ Real.sqrt 3 * st.box :=
    mul_le_mul_of_nonneg_right h3l.le (by linarith)
  have hcb : Real.sqrt 3 * st.box ≤ st.copiesMax * (Real.sqrt 3 * st.box) := by nlinarith
  nlinarith

/-- C126: every round lightcone of less than 30 degrees whose diameter at the far end fits in a box
of at least 40 Mpc/h has lines of sight, and the probability of not having found one goes to
zero. -/
theorem C126_circle_partial (st : Settings ℝ) (far : ℝ) (hm : st.mode = .circle)
    (h0 : 0 < st.angle) (h1 : st.angle < Real.pi / 6) (hb : 40 ≤ st.box) (hc : 0 < st.copiesMax)
    (hf : 0 ≤ far) (hfit : far * st.angle ≤ st.box) :
    (∃ draws : List (Vec ℝ), (∀ v ∈ draws, Drawn v) ∧
      pickLos (openRadius st) st.box far st.copiesMax false false draws ≠ none) ∧
    Filter.Tendsto (fun k => Spec.drawsMeasure k
      {t | pickLos (openRadius st) st.box far st.copiesMax false false (Spec.inOrder t) = none})
      Filter.atTop (nhds 0) := by
  have hroom := circle_room st far hm h0 h1 hb hc hf hfit
  have hR : 0 < openRadius st := by
    unfold openRadius
    rw [hm]
    simp only
    linarith
  exact ⟨(C126_iff _ _ _ _ hR (by linarith [hroom.1, Real.pi_pos]) (by linarith) hf).2 hroom,
    C126_almost_surely _ _ _ _ hR hroom⟩

/-- A request for a square lightcone of 11.5 degrees that reaches 4500 Mpc/h in a box of
1000 Mpc/h. -/
noncomputable def squareRequest : Settings ℝ where
  box := 1000
  h := 7 / 10
  mode := .box
  angle := 1 / 5
  aspect := 1
  zlo := 0
  zhi := 2
  dzmin := 0
  dzmax := 4500
  minMass := 0
  copiesMax := 1
  root := Real.sqrt
  assignZ := id

theorem squareRequest_accepted : Accepted squareRequest 4500 4500 where
  checked := by
    unfold coneCheck squareRequest
    norm_num
  angle := by norm_num [squareRequest]
  aspect := by norm_num [squareRequest]
  box := by norm_num [squareRequest]
  copies := by norm_num [squareRequest]
  near := by norm_num
  far := le_rfl

/-- C126 in full is false. -/
theorem C126_full_false : ¬ C126_full := by
  intro h
  obtain ⟨draws, hd, hne⟩ := h _ _ _ squareRequest_accepted
  exact hne (C126_square_fails _ _ rfl rfl squareRequest_accepted.angle
    (by norm_num [squareRequest]) squareRequest_accepted.box rfl (by norm_num [squareRequest])
    draws hd)

/-- The same request for a round lightcone is accepted and has lines of sight. -/
example : Accepted { squareRequest with mode := .circle } 4500 4500 ∧
    Room (openRadius { squareRequest with mode := .circle }) 1000 4500 1 :=
  ⟨{ checked := by unfold coneCheck squareRequest; norm_num
     angle := by norm_num [squareRequest]
     aspect := by norm_num [squareRequest]
     box := by norm_num [squareRequest]
     copies := by norm_num [squareRequest]
     near := by norm_num
     far := le_rfl },
   circle_room { squareRequest with mode := .circle } 4500 rfl
     (by norm_num [squareRequest])
     (by have := Real.pi_gt_three; simp only [squareRequest]; linarith)
     (by norm_num [squareRequest]) (by norm_num [squareRequest]) (by norm_num)
     (by norm_num [squareRequest])⟩

/-- A round lightcone of 40 degrees up to 500 Mpc/h is accepted and has no line of sight. -/
example : Accepted { squareRequest with mode := .circle, angle := 2 * Real.pi / 9 } 500 500 ∧
    Real.pi / 12 ≤ openRadius { squareRequest with mode := .circle, angle := 2 * Real.pi / 9 } ∧
    openRadius { squareRequest with mode := .circle, angle := 2 * Real.pi / 9 } < Real.pi / 3 := by
  have h1 := Real.pi_gt_three
  have h2 := Real.pi_lt_four
  refine ⟨{ checked := ?_
            angle := by simp only [squareRequest]; linarith
            aspect := by norm_num [squareRequest]
            box := by norm_num [squareRequest]
            copies := by norm_num [squareRequest]
            near := by norm_num
            far := le_rfl }, ?_, ?_⟩
  · unfold coneCheck squareRequest
    rw [if_neg (by simp), if_neg (by norm_num), if_neg (by norm_num), if_neg (by
      simp only; linarith)]
  · show Real.pi / 12 ≤ 2 * Real.pi / 9 / 2
    linarith
  · show 2 * Real.pi / 9 / 2 < Real.pi / 3
    linarith

end Verif.LC
