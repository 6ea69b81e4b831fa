import Verif.Lemmas.LumFun
import Verif.Spec.LumFun
import Mathlib.Analysis.SpecialFunctions.Gamma.Basic
import Mathlib.Analysis.SpecialFunctions.Pow.Asymptotics
import Mathlib.Analysis.SpecialFunctions.Pow.Deriv
import Mathlib.MeasureTheory.Integral.IntegralEqImproper

/-!
# Incomplete gamma functions and Schechter functions
-/

set_option linter.unusedSectionVars false

namespace Verif.LF

open Set MeasureTheory Filter Topology Spec

/-- The integrand of the incomplete gamma function. -/
noncomputable def gi (b t : ℝ) : ℝ := t ^ b * Real.exp (-t)

theorem gi_integrable (b x : ℝ) (hx : 0 < x) : IntegrableOn (gi b) (Ioi x) := by
  have h : IntegrableOn (fun t : ℝ => Real.exp (-t) * t ^ b) (Ioi x) := by
    refine integrable_of_isBigO_exp_neg one_half_pos ?_ (Real.Gamma_integrand_isLittleO b).isBigO
    refine continuousOn_id.neg.rexp.mul (continuousOn_id.rpow_const ?_)
    intro t ht
    exact .inl (lt_of_lt_of_le hx ht).ne'
  have e : gi b = fun t : ℝ => Real.exp (-t) * t ^ b := by
    funext t; exact mul_comm _ _
  rw [e]; exact h

theorem gi_pos (b t : ℝ) (ht : 0 < t) : 0 < gi b t :=
  mul_pos (Real.rpow_pos_of_pos ht b) (Real.exp_pos _)

theorem gi_deriv (b t : ℝ) (ht : 0 < t) :
    HasDerivAt (fun t => -gi b t) (gi b t - b * gi (b - 1) t) t := by
  have h1 : HasDerivAt (fun t : ℝ => t ^ b) (b * t ^ (b - 1)) t := Real.hasDerivAt_rpow_const (.inl ht.ne')
  have h2 : HasDerivAt (fun t : ℝ => Real.exp (-t)) (-Real.exp (-t)) t := by
    have := (hasDerivAt_neg t).exp
    simpa using this
  have h := (h1.mul h2).neg
  refine h.congr_deriv ?_
  unfold gi
  ring

theorem gi_tendsto (b : ℝ) : Tendsto (fun t => -gi b t) atTop (𝓝 0) := by
  have := tendsto_rpow_mul_exp_neg_mul_atTop_nhds_zero b 1 one_pos
  have h : Tendsto (gi b) atTop (𝓝 0) := by
    refine this.congr ?_
    intro t
    unfold gi
    simp
  have := h.neg
  simpa using this

/-- Integration by parts. -/
theorem gi_tail (b x : ℝ) (hx : 0 < x) (hb : b ≠ 0) :
    tail (gi (b - 1)) x = (tail (gi b) x - x ^ b * Real.exp (-x)) / b := by
  have hint := (gi_integrable b x hx).sub ((gi_integrable (b - 1) x hx).const_mul b)
  have h := integral_Ioi_of_hasDerivAt_of_tendsto' (a := x) (m := (0 : ℝ))
    (f := fun t => -gi b t) (f' := fun t => gi b t - b * gi (b - 1) t)
    (fun t ht => gi_deriv b t (lt_of_lt_of_le hx ht)) hint (gi_tendsto b)
  have h2 : ∫ t in Ioi x, (gi b t - b * gi (b - 1) t) = tail (gi b) x - b * tail (gi (b - 1)) x := by
    unfold tail
    rw [integral_sub (gi_integrable b x hx) ((gi_integrable (b - 1) x hx).const_mul b), integral_const_mul]
  rw [h2] at h
  have e : gi b x = x ^ b * Real.exp (-x) := rfl
  rw [eq_div_iff hb, ← e]
  linarith

theorem start_eq (sp : Special) (hs : Lawful sp) (a x : ℝ) (hx : 0 < x) (ha : a ≤ 0) :
    startValue sp a x = tail (gi (amod a - 1)) x := by
  have h0 : 0 ≤ amod a := Int.fract_nonneg a
  unfold startValue
  rw [if_neg (not_lt.2 ha)]
  by_cases h : amod a = 0
  · rw [if_pos h, hs.expi x hx, h]
    congr 1
    funext t
    unfold gi
    rw [zero_sub, Real.rpow_neg_one]
  · rw [if_neg h, hs.gamma _ _ (lt_of_le_of_ne h0 (Ne.symm h)) hx]
    rfl

theorem loop_eq (am x : ℝ) (hx : 0 < x) (hm : am < 1) (n : ℕ) :
    (List.range n).foldl (fun gp i => oneStep am x i gp) (tail (gi (am - 1)) x) =
      tail (gi (am - n - 1)) x := by
  induction n with
  | zero => simp
  | succ n ih =>
    rw [List.range_succ, List.foldl_append, ih]
    simp only [List.foldl_cons, List.foldl_nil]
    unfold oneStep
    have hn : (0 : ℝ) ≤ n := Nat.cast_nonneg n
    have hb : am - ((n : ℝ) + 1) ≠ 0 := by
      have : am - ((n : ℝ) + 1) < 0 := by linarith
      exact this.ne
    have e1 : am - (n : ℝ) - 1 = am - ((n : ℝ) + 1) := by ring
    have e2 : am - ((n + 1 : ℕ) : ℝ) - 1 = am - ((n : ℝ) + 1) - 1 := by push_cast; ring
    rw [e1, e2]
    exact (gi_tail _ x hx hb).symm

theorem upperMod_eq (sp : Special) (hs : Lawful sp) (a x : ℝ) (hx : 0 < x) :
    upperMod sp a x = tail (gi (a - 1)) x := by
  unfold upperMod
  rcases lt_or_ge 0 a with ha | ha
  · have h0 : steps a = 0 := by
      unfold steps
      have : 0 ≤ ⌊a⌋ := Int.floor_nonneg.2 ha.le
      omega
    rw [h0]
    simp only [List.range_zero, List.foldl_nil]
    unfold startValue
    rw [if_pos ha, hs.gamma a x ha hx]
    rfl
  · rw [start_eq sp hs a x hx ha, loop_eq (amod a) x hx (Int.fract_lt_one a)]
    have h : ((steps a : ℕ) : ℝ) = -(⌊a⌋ : ℝ) := by
      unfold steps
      have h1 : ⌊a⌋ ≤ 0 := by
        have := Int.floor_le a
        have h2 : (⌊a⌋ : ℝ) ≤ ((0 : ℤ) : ℝ) := by push_cast; linarith
        exact_mod_cast h2
      have h3 : (((-⌊a⌋).toNat : ℕ) : ℤ) = -⌊a⌋ := Int.toNat_of_nonneg (by omega)
      have h4 : (((-⌊a⌋).toNat : ℕ) : ℝ) = (((-⌊a⌋).toNat : ℤ) : ℝ) := by norm_cast
      rw [h4, h3]
      push_cast
      rfl
    rw [h]
    congr 2
    unfold amod
    ring

/-! ## Schechter functions -/

/-- One term of the Schechter function. -/
noncomputable def term (x0 : ℝ) (p : ℝ × ℝ) (t : ℝ) : ℝ := p.2 / x0 * gi p.1 (t / x0)

theorem schechter_eq (x0 : ℝ) (parts : List (ℝ × ℝ)) (t : ℝ) :
    schechter x0 parts t = (parts.map (fun p => term x0 p t)).sum := by
  unfold schechter term gi
  simp only [mul_assoc]

theorem term_integrable (x0 : ℝ) (h0 : 0 < x0) (p : ℝ × ℝ) (x : ℝ) (hx : 0 < x) :
    IntegrableOn (term x0 p) (Ioi x) := by
  have h1 : IntegrableOn (gi p.1) (Ioi (x0⁻¹ * x)) :=
    gi_integrable _ _ (mul_pos (inv_pos.2 h0) hx)
  have h2 : IntegrableOn (fun t => gi p.1 (x0⁻¹ * t)) (Ioi x) :=
    (integrableOn_Ioi_comp_mul_left_iff (gi p.1) x (inv_pos.2 h0)).2 h1
  have e : term x0 p = fun t => p.2 / x0 * gi p.1 (x0⁻¹ * t) := by
    funext t
    unfold term
    rw [div_eq_mul_inv t x0, mul_comm t]
  rw [e]
  exact h2.const_mul _

theorem term_tail (x0 : ℝ) (h0 : 0 < x0) (p : ℝ × ℝ) (x : ℝ) :
    tail (term x0 p) x = p.2 * tail (gi p.1) (x / x0) := by
  have e : term x0 p = fun t => p.2 / x0 * gi p.1 (x0⁻¹ * t) := by
    funext t
    unfold term
    rw [div_eq_mul_inv t x0, mul_comm t]
  unfold tail
  rw [e, integral_const_mul, integral_comp_mul_left_Ioi (gi p.1) x (inv_pos.2 h0), inv_inv, smul_eq_mul,
    div_eq_mul_inv x x0, mul_comm x, ← mul_assoc, div_mul_cancel₀ _ h0.ne']

theorem sum_integrable (x0 : ℝ) (h0 : 0 < x0) (parts : List (ℝ × ℝ)) (x : ℝ) (hx : 0 < x) :
    IntegrableOn (fun t => (parts.map (fun p => term x0 p t)).sum) (Ioi x) := by
  induction parts with
  | nil => simp
  | cons p ps ih =>
    simp only [List.map_cons, List.sum_cons]
    exact (term_integrable x0 h0 p x hx).add ih

theorem schechter_integrable (x0 : ℝ) (h0 : 0 < x0) (parts : List (ℝ × ℝ)) (x : ℝ) (hx : 0 < x) :
    IntegrableOn (schechter x0 parts) (Ioi x) := by
  have : schechter x0 parts = fun t => (parts.map (fun p => term x0 p t)).sum := by
    funext t; exact schechter_eq x0 parts t
  rw [this]
  exact sum_integrable x0 h0 parts x hx

theorem sum_tail (x0 : ℝ) (h0 : 0 < x0) (parts : List (ℝ × ℝ)) (x : ℝ) (hx : 0 < x) :
    tail (fun t => (parts.map (fun p => term x0 p t)).sum) x =
      (parts.map (fun p => p.2 * tail (gi p.1) (x / x0))).sum := by
  induction parts with
  | nil => simp [tail]
  | cons p ps ih =>
    simp only [List.map_cons, List.sum_cons]
    rw [← ih, ← term_tail x0 h0 p x]
    unfold tail
    exact integral_add (term_integrable x0 h0 p x hx) (sum_integrable x0 h0 ps x hx)

theorem above_eq (sp : Special) (hs : Lawful sp) (d : Schechter) (h0 : 0 < d.x0) (x : ℝ) (hx : 0 < x) :
    d.above sp x = tail (schechter d.x0 d.parts) x := by
  have e : schechter d.x0 d.parts = fun t => (d.parts.map (fun p => term d.x0 p t)).sum := by
    funext t; exact schechter_eq _ _ t
  rw [e, sum_tail d.x0 h0 d.parts x hx]
  unfold Schechter.above
  congr 1
  apply List.map_congr_left
  intro p _
  rw [upperMod_eq sp hs _ _ (div_pos hx h0), add_sub_cancel_right]

theorem lum_eq (d : Schechter) (h0 : 0 < d.x0) (x : ℝ) (hx : d.xmin ≤ x) :
    d.lum x = schechter d.x0 d.parts x := by
  unfold Schechter.lum schechter
  rw [if_neg (not_lt.2 hx)]
  have hne := h0.ne'
  induction d.parts with
  | nil => simp
  | cons p ps ih =>
    simp only [List.map_cons, List.sum_cons]
    rw [← ih]
    have : -x / d.x0 = -(x / d.x0) := by ring
    rw [this]
    field_simp

/-! ## Order -/

theorem schechter_nonneg (x0 : ℝ) (h0 : 0 < x0) (parts : List (ℝ × ℝ)) (hp : ∀ p ∈ parts, 0 ≤ p.2)
    (t : ℝ) (ht : 0 < t) : 0 ≤ schechter x0 parts t := by
  rw [schechter_eq]
  apply List.sum_nonneg
  intro y hy
  obtain ⟨p, hm, rfl⟩ := List.mem_map.1 hy
  exact mul_nonneg (div_nonneg (hp p hm) h0.le) (gi_pos _ _ (div_pos ht h0)).le

theorem schechter_pos (x0 : ℝ) (h0 : 0 < x0) (parts : List (ℝ × ℝ)) (hp : ∀ p ∈ parts, 0 ≤ p.2)
    (hq : ∃ p ∈ parts, 0 < p.2) (t : ℝ) (ht : 0 < t) : 0 < schechter x0 parts t := by
  rw [schechter_eq]
  obtain ⟨p, hm, hpos⟩ := hq
  have h1 : 0 < term x0 p t := mul_pos (div_pos hpos h0) (gi_pos _ _ (div_pos ht h0))
  have h2 : ∀ y ∈ parts.map (fun p => term x0 p t), 0 ≤ y := by
    intro y hy
    obtain ⟨q, hmq, rfl⟩ := List.mem_map.1 hy
    exact mul_nonneg (div_nonneg (hp q hmq) h0.le) (gi_pos _ _ (div_pos ht h0)).le
  exact lt_of_lt_of_le h1 (List.single_le_sum h2 _ (List.mem_map.2 ⟨p, hm, rfl⟩))

/-- The tail is the integral over an interval and the tail beyond it. -/
theorem tail_split (f : ℝ → ℝ) (x y : ℝ) (hxy : x ≤ y) (hf : IntegrableOn f (Ioi x)) :
    tail f x = (∫ t in Ioc x y, f t) + tail f y := by
  unfold tail
  rw [← Ioc_union_Ioi_eq_Ioi hxy, setIntegral_union (Ioc_disjoint_Ioi (le_refl y)) measurableSet_Ioi
    (hf.mono_set Ioc_subset_Ioi_self) (hf.mono_set (Ioi_subset_Ioi hxy))]

theorem interval_pos (f : ℝ → ℝ) (x y : ℝ) (hxy : x < y) (hf : IntegrableOn f (Ioi x))
    (hp : ∀ t, x < t → 0 < f t) : 0 < ∫ t in Ioc x y, f t := by
  have h1 : IntegrableOn f (Ioc x y) := hf.mono_set Ioc_subset_Ioi_self
  rw [setIntegral_pos_iff_support_of_nonneg_ae ?_ h1]
  · have : Function.support f ∩ Ioc x y = Ioc x y := by
      apply inter_eq_right.2
      intro t ht
      exact (hp t ht.1).ne'
    rw [this, Real.volume_Ioc]
    simpa using hxy
  · refine (ae_restrict_iff' measurableSet_Ioc).2 (ae_of_all _ ?_)
    intro t ht
    exact (hp t ht.1).le

theorem tail_pos (f : ℝ → ℝ) (x : ℝ) (hf : IntegrableOn f (Ioi x)) (hp : ∀ t, x < t → 0 < f t) :
    0 < tail f x := by
  rw [tail_split f x (x + 1) (by linarith) hf]
  have h1 := interval_pos f x (x + 1) (by linarith) hf hp
  have h2 : 0 ≤ tail f (x + 1) := by
    unfold tail
    apply setIntegral_nonneg measurableSet_Ioi
    intro t ht
    exact (hp t (lt_trans (by linarith) ht)).le
  linarith

theorem tail_lt (f : ℝ → ℝ) (x y : ℝ) (hxy : x < y) (hf : IntegrableOn f (Ioi x))
    (hp : ∀ t, x < t → 0 < f t) : tail f y < tail f x := by
  rw [tail_split f x y hxy.le hf]
  linarith [interval_pos f x y hxy hf hp]

end Verif.LF
