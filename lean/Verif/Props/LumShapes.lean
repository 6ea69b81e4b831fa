import Verif.Spec.LumShapes
import Verif.Props.LumFun
import Mathlib.Tactic.FieldSimp
import Mathlib.Tactic.Linarith
import Mathlib.Tactic.Positivity

/-!
# The parameters of luminosity functions
-/

set_option linter.unusedSectionVars false

namespace Verif.LF

open Verif.Gal (Fn realFn)
open Spec

/-- The modified Schechter function with these parameters for every minimum, as `lum_function` returns it
for the elements of an array. -/
noncomputable def modifiedLum (erf : ℝ → ℝ) (phi0 x0 alpha sigma : ℝ) (m x : ℝ) : ℝ :=
  cutoff (modified (realFn erf) phi0 x0 alpha sigma m).xmin (modified (realFn erf) phi0 x0 alpha sigma m).shape x

/-- The same for the double power law. -/
noncomputable def doubledLum (erf : ℝ → ℝ) (phi0 x0 alpha beta : ℝ) (m x : ℝ) : ℝ :=
  cutoff (doubled (realFn erf) phi0 x0 alpha beta m).xmin (doubled (realFn erf) phi0 x0 alpha beta m).shape x

/-- The answers of a tabulated distribution. -/
noncomputable def answers (erf : ℝ → ℝ) (d : Tab ℝ) : Answers :=
  ⟨d.count (realFn erf), d.cdf (realFn erf), d.pdf (realFn erf), d.ppf (realFn erf)⟩

section shapes
variable (erf : ℝ → ℝ) (phi0 x0 alpha sigma beta : ℝ)

theorem modifiedLum_of {m x : ℝ} (h : m ≤ x) : modifiedLum erf phi0 x0 alpha sigma m x =
    phi0 * (x / x0) ^ (1 - alpha) *
      Real.exp (-1 / (2 * sigma ^ 2) * (Real.log (1 + x / x0) / Real.log 10) ^ 2) :=
  if_neg (not_lt.2 h)

theorem doubledLum_of {m x : ℝ} (h : m ≤ x) : doubledLum erf phi0 x0 alpha beta m x =
    phi0 * ((x / x0) ^ alpha + (x / x0) ^ beta)⁻¹ :=
  if_neg (not_lt.2 h)

/-- C142. The amplitude and the slope of a modified Schechter function are those of the power law it
follows for faint objects; for bright objects it falls below every power law; luminosities below the
minimum do not occur. -/
theorem C142_modified (h0 : 0 < phi0) (hx : 0 < x0) (hs : 0 < sigma) :
    NoneBelow (modifiedLum erf phi0 x0 alpha sigma) ∧
    FaintEnd (modifiedLum erf phi0 x0 alpha sigma) phi0 x0 (1 - alpha) ∧
    FallsOff (modifiedLum erf phi0 x0 alpha sigma) := by
  have hl : 0 < Real.log 10 := Real.log_pos (by norm_num)
  obtain ⟨c, hc⟩ : ∃ c, c = 1 / (2 * sigma ^ 2) / Real.log 10 ^ 2 := ⟨_, rfl⟩
  have hc0 : 0 < c := by rw [hc]; positivity
  have ex : ∀ y, -1 / (2 * sigma ^ 2) * (Real.log (1 + y) / Real.log 10) ^ 2 = -(c * Real.log (1 + y) ^ 2) := by
    intro y
    rw [hc, div_pow]
    ring
  refine ⟨fun m x h => if_pos h, ?_, ?_⟩
  · intro e he
    refine ⟨x0 * min 1 (e / c), by positivity, ?_⟩
    intro m x hm hmx hxb
    have hx' : 0 < x := lt_of_lt_of_le hm hmx
    obtain ⟨y, hy⟩ : ∃ y, y = x / x0 := ⟨_, rfl⟩
    have hy0 : 0 < y := by rw [hy]; positivity
    have hyb : y < min 1 (e / c) := by rw [hy, div_lt_iff₀ hx, mul_comm]; exact hxb
    rw [modifiedLum_of erf phi0 x0 alpha sigma hmx, ← hy, ex]
    have hp : phi0 * y ^ (1 - alpha) ≠ 0 := by positivity
    rw [mul_div_cancel_left₀ _ hp]
    have l0 : 0 ≤ Real.log (1 + y) := Real.log_nonneg (by linarith)
    have l1 : Real.log (1 + y) ≤ y := by
      have := Real.log_le_sub_one_of_pos (x := 1 + y) (by linarith)
      linarith
    have l2 : Real.log (1 + y) ^ 2 ≤ y := by
      have h1 := (lt_min_iff.1 hyb).1
      nlinarith
    have l3 : c * y < e := by
      have := (lt_min_iff.1 hyb).2
      rw [lt_div_iff₀ hc0] at this
      linarith
    have l4 := Real.add_one_le_exp (-(c * Real.log (1 + y) ^ 2))
    have l5 : Real.exp (-(c * Real.log (1 + y) ^ 2)) ≤ 1 := by
      rw [Real.exp_le_one_iff]
      have : 0 ≤ c * Real.log (1 + y) ^ 2 := by positivity
      linarith
    rw [abs_lt]
    constructor <;> nlinarith [mul_le_mul_of_nonneg_left l2 hc0.le]
  · intro n e he
    obtain ⟨s, hs'⟩ : ∃ s, s = 1 - alpha + n := ⟨_, rfl⟩
    obtain ⟨A, hA⟩ : ∃ A, A = phi0 * x0 ^ n := ⟨_, rfl⟩
    have hA0 : 0 < A := by rw [hA]; positivity
    refine ⟨x0 * max 1 (max (Real.exp ((|s| + 1) / c)) (A / e)), ?_⟩
    intro m x hm hmx hxb
    have hx' : 0 < x := lt_of_lt_of_le hm hmx
    obtain ⟨y, hy⟩ : ∃ y, y = x / x0 := ⟨_, rfl⟩
    have hy0 : 0 < y := by rw [hy]; positivity
    have hyb : max 1 (max (Real.exp ((|s| + 1) / c)) (A / e)) < y := by
      rw [hy, lt_div_iff₀ hx, mul_comm]; exact hxb
    obtain ⟨y1, hyb⟩ := max_lt_iff.1 hyb
    obtain ⟨y2, y3⟩ := max_lt_iff.1 hyb
    rw [modifiedLum_of erf phi0 x0 alpha sigma hmx, ← hy, ex]
    refine ⟨by positivity, ?_⟩
    have xe : x = x0 * y := by rw [hy]; field_simp
    obtain ⟨t, ht⟩ : ∃ t, t = Real.log (1 + y) := ⟨_, rfl⟩
    rw [← ht]
    have t1 : Real.log y ≤ t := by rw [ht]; exact Real.log_le_log hy0 (by linarith)
    have t2 : 0 ≤ Real.log y := Real.log_nonneg y1.le
    have t3 : (|s| + 1) / c < t := by
      have := Real.log_lt_log (Real.exp_pos _) y2
      rw [Real.log_exp] at this
      linarith
    have e1 : x ^ n * (phi0 * y ^ (1 - alpha) * Real.exp (-(c * t ^ 2))) =
        A * Real.exp (s * Real.log y - c * t ^ 2) := by
      rw [xe, mul_pow, hA, hs', sub_eq_add_neg (_ * _), Real.exp_add, mul_comm _ (Real.log y),
        ← Real.rpow_def_of_pos hy0, Real.rpow_add hy0, Real.rpow_natCast]
      ring
    rw [e1]
    have e2 : s * Real.log y - c * t ^ 2 ≤ -t := by
      have a1 : s * Real.log y ≤ |s| * t :=
        (mul_le_mul_of_nonneg_right (le_abs_self s) t2).trans (mul_le_mul_of_nonneg_left t1 (abs_nonneg s))
      have a2 : |s| + 1 < c * t := by
        rw [div_lt_iff₀ hc0] at t3
        linarith
      have a3 : 0 ≤ t := t2.trans t1
      nlinarith
    have e3 : Real.exp (-t) = (1 + y)⁻¹ := by rw [Real.exp_neg, ht, Real.exp_log (by linarith)]
    calc A * Real.exp (s * Real.log y - c * t ^ 2) ≤ A * (1 + y)⁻¹ := by
          rw [← e3]; exact mul_le_mul_of_nonneg_left (Real.exp_le_exp.2 e2) hA0.le
      _ < e := by
          rw [div_lt_iff₀ he] at y3
          rw [← div_eq_mul_inv, div_lt_iff₀ (by linarith)]
          nlinarith

/-- C142. With a slope of at least one, brighter objects are rarer. -/
theorem C142_modified_rarer (h0 : 0 < phi0) (hx : 0 < x0) (hs : 0 < sigma) (ha : 1 ≤ alpha) :
    Rarer (modifiedLum erf phi0 x0 alpha sigma) := by
  intro m x y hm hmx hxy
  have hl : 0 < Real.log 10 := Real.log_pos (by norm_num)
  rw [modifiedLum_of erf phi0 x0 alpha sigma hmx, modifiedLum_of erf phi0 x0 alpha sigma (hmx.trans hxy.le)]
  have h1 : 0 < x / x0 := div_pos (lt_of_lt_of_le hm hmx) hx
  have h2 : x / x0 < y / x0 := div_lt_div_of_pos_right hxy hx
  have p1 : (y / x0) ^ (1 - alpha) ≤ (x / x0) ^ (1 - alpha) :=
    Real.rpow_le_rpow_of_nonpos h1 h2.le (by linarith)
  have l1 : Real.log (1 + x / x0) < Real.log (1 + y / x0) := Real.log_lt_log (by linarith) (by linarith)
  have l0 : 0 ≤ Real.log (1 + x / x0) := Real.log_nonneg (by linarith)
  have l2 : (Real.log (1 + x / x0) / Real.log 10) ^ 2 < (Real.log (1 + y / x0) / Real.log 10) ^ 2 :=
    pow_lt_pow_left₀ (div_lt_div_of_pos_right l1 hl) (by positivity) (by norm_num)
  have hk : -1 / (2 * sigma ^ 2) < 0 := div_neg_of_neg_of_pos (by norm_num) (by positivity)
  have e1 := Real.exp_lt_exp.2 (mul_lt_mul_of_neg_left l2 hk)
  have q : 0 < (x / x0) ^ (1 - alpha) := Real.rpow_pos_of_pos h1 _
  calc phi0 * (y / x0) ^ (1 - alpha) * Real.exp (-1 / (2 * sigma ^ 2) * (Real.log (1 + y / x0) / Real.log 10) ^ 2)
      ≤ phi0 * (x / x0) ^ (1 - alpha) * Real.exp (-1 / (2 * sigma ^ 2) * (Real.log (1 + y / x0) / Real.log 10) ^ 2) :=
        mul_le_mul_of_nonneg_right (mul_le_mul_of_nonneg_left p1 h0.le) (Real.exp_pos _).le
    _ < _ := mul_lt_mul_of_pos_left e1 (by positivity)

/-- C142. A double power law has the first slope for faint and the second for bright objects if the
second is larger, and half of the amplitude where they meet. -/
theorem C142_doubled (h0 : 0 < phi0) (hx : 0 < x0) (hab : alpha < beta) :
    NoneBelow (doubledLum erf phi0 x0 alpha beta) ∧
    FaintEnd (doubledLum erf phi0 x0 alpha beta) phi0 x0 (-alpha) ∧
    BrightEnd (doubledLum erf phi0 x0 alpha beta) phi0 x0 (-beta) ∧
    ∀ m, m ≤ x0 → doubledLum erf phi0 x0 alpha beta m x0 = phi0 / 2 := by
  have hd : 0 < beta - alpha := by linarith
  have near : ∀ w e : ℝ, 0 < w → w < e → |(1 + w)⁻¹ - 1| < e := by
    intro w e hw he
    have : (1 + w)⁻¹ - 1 = -(w / (1 + w)) := by field_simp; ring
    rw [this, abs_neg, abs_of_pos (by positivity)]
    exact lt_of_le_of_lt (div_le_self hw.le (by linarith)) he
  refine ⟨fun m x h => if_pos h, ?_, ?_, ?_⟩
  · intro e he
    refine ⟨x0 * e ^ (1 / (beta - alpha)), by positivity, ?_⟩
    intro m x hm hmx hxb
    have hx' : 0 < x := lt_of_lt_of_le hm hmx
    obtain ⟨y, hy⟩ : ∃ y, y = x / x0 := ⟨_, rfl⟩
    have hy0 : 0 < y := by rw [hy]; positivity
    have hyb : y < e ^ (1 / (beta - alpha)) := by rw [hy, div_lt_iff₀ hx, mul_comm]; exact hxb
    rw [doubledLum_of erf phi0 x0 alpha beta hmx, ← hy]
    have w1 : y ^ (beta - alpha) < e := by
      have := Real.rpow_lt_rpow hy0.le hyb hd
      rwa [← Real.rpow_mul he.le, one_div, inv_mul_cancel₀ hd.ne', Real.rpow_one] at this
    have w2 : phi0 * (y ^ alpha + y ^ beta)⁻¹ / (phi0 * y ^ (-alpha)) = (1 + y ^ (beta - alpha))⁻¹ := by
      have p := Real.rpow_pos_of_pos hy0 alpha
      have q := Real.rpow_pos_of_pos hy0 beta
      rw [Real.rpow_neg hy0.le, Real.rpow_sub hy0]
      field_simp
    rw [w2]
    exact near _ _ (Real.rpow_pos_of_pos hy0 _) w1
  · intro e he
    refine ⟨x0 * (e⁻¹) ^ (1 / (beta - alpha)), ?_⟩
    intro m x hm hmx hxb
    have hx' : 0 < x := lt_of_lt_of_le hm hmx
    obtain ⟨y, hy⟩ : ∃ y, y = x / x0 := ⟨_, rfl⟩
    have hy0 : 0 < y := by rw [hy]; positivity
    have hyb : (e⁻¹) ^ (1 / (beta - alpha)) < y := by rw [hy, lt_div_iff₀ hx, mul_comm]; exact hxb
    rw [doubledLum_of erf phi0 x0 alpha beta hmx, ← hy]
    have w1 : (y ^ (beta - alpha))⁻¹ < e := by
      have := Real.rpow_lt_rpow (by positivity) hyb hd
      rw [← Real.rpow_mul (inv_pos.2 he).le, one_div, inv_mul_cancel₀ hd.ne', Real.rpow_one] at this
      exact inv_lt_of_inv_lt₀ he this
    have w2 : phi0 * (y ^ alpha + y ^ beta)⁻¹ / (phi0 * y ^ (-beta)) = (1 + (y ^ (beta - alpha))⁻¹)⁻¹ := by
      have p := Real.rpow_pos_of_pos hy0 alpha
      have q := Real.rpow_pos_of_pos hy0 beta
      rw [Real.rpow_neg hy0.le, Real.rpow_sub hy0]
      field_simp
      ring
    rw [w2]
    exact near _ _ (inv_pos.2 (Real.rpow_pos_of_pos hy0 _)) w1
  · intro m hm
    rw [doubledLum_of erf phi0 x0 alpha beta hm, div_self hx.ne', Real.one_rpow, Real.one_rpow]
    norm_num
    ring

/-- C142. With slopes above zero, brighter objects are rarer. -/
theorem C142_doubled_rarer (h0 : 0 < phi0) (hx : 0 < x0) (ha : 0 < alpha) (hb : 0 < beta) :
    Rarer (doubledLum erf phi0 x0 alpha beta) := by
  intro m x y hm hmx hxy
  rw [doubledLum_of erf phi0 x0 alpha beta hmx, doubledLum_of erf phi0 x0 alpha beta (hmx.trans hxy.le)]
  have h1 : 0 < x / x0 := div_pos (lt_of_lt_of_le hm hmx) hx
  have h2 : x / x0 < y / x0 := div_lt_div_of_pos_right hxy hx
  have a := Real.rpow_lt_rpow h1.le h2 ha
  have b := Real.rpow_lt_rpow h1.le h2 hb
  have p := Real.rpow_pos_of_pos h1 alpha
  have q := Real.rpow_pos_of_pos h1 beta
  exact mul_lt_mul_of_pos_left (inv_strictAnti₀ (by positivity) (by linarith)) h0

end shapes

/-! ## Units and amplitudes -/

section scale
variable {K : Type} [Field K] [LinearOrder K] [IsStrictOrderedRing K]

theorem interpFrom_scale (u v : K) (hu : 0 < u) (r x : K) (ps : List (K × K)) : ∀ p : K × K,
    AM.interpFrom id (v * r) (u * x) (u * p.1, v * p.2) (ps.map (fun p => (u * p.1, v * p.2))) =
      v * AM.interpFrom id r x p ps := by
  induction ps with
  | nil =>
    intro p
    simp only [List.map_nil, AM.interpFrom, mul_lt_mul_iff_right₀ hu]
    split <;> rfl
  | cons q qs ih =>
    intro p
    simp only [List.map_cons, AM.interpFrom, mul_le_mul_iff_right₀ hu, mul_right_inj' hu.ne']
    split
    · exact ih q
    · split
      · rfl
      · simp only [id]
        rename_i h1 h2
        by_cases hz : q.1 - p.1 = 0
        · have : u * q.1 - u * p.1 = 0 := by rw [← mul_sub, hz, mul_zero]
          rw [this, hz]; simp
        · rw [← mul_sub, ← mul_sub, ← mul_sub]
          have := hu.ne'
          field_simp

theorem interpD_scale (u v : K) (hu : 0 < u) (x : K) (ps : List (K × K)) :
    interpD (ps.map (fun p => (u * p.1, v * p.2))) (u * x) = v * interpD ps x := by
  cases ps with
  | nil => simp [interpD]
  | cons p qs =>
    have hl : ((((p :: qs).map (fun p => (u * p.1, v * p.2))).getLast (by simp)).2) =
        v * ((p :: qs).getLast (by simp)).2 := by
      rw [List.getLast_map]
    show AM.interp id (v * p.2) (((p :: qs).map (fun p => (u * p.1, v * p.2))).getLast (by simp)).2
      (u * p.1, v * p.2) (qs.map (fun p => (u * p.1, v * p.2))) (u * x) = _
    rw [hl]
    simp only [interpD, AM.interp, mul_lt_mul_iff_right₀ hu]
    split
    · rfl
    · exact interpFrom_scale u v hu _ x qs p

theorem cumsum_scale (v : K) (l : List K) : ∀ s, cumsum (v * s) (l.map (fun x => v * x)) =
    (cumsum s l).map (fun x => v * x) := by
  induction l with
  | nil => intro s; rfl
  | cons a l ih =>
    intro s
    simp only [List.map_cons, cumsum, ← mul_add, ih]

/-- A distribution with other units and amplitude. -/
structure Scaled (d e : Tab K) (u v : K) : Prop where
  xmin : e.xmin = u * d.xmin
  accepted : e.accepted = d.accepted
  shape : ∀ x, e.shape (u * x) = v * d.shape x

variable {d e : Tab K} {u v : K}

theorem Scaled.cutoff (h : Scaled d e u v) (hu : 0 < u) (x : K) :
    cutoff e.xmin e.shape (u * x) = v * cutoff d.xmin d.shape x := by
  unfold LF.cutoff
  rw [h.xmin]
  simp only [mul_lt_mul_iff_right₀ hu, h.shape]
  split
  · rw [mul_zero]
  · rfl

theorem Scaled.countTable (h : Scaled d e u v) (hu : 0 < u) (dx : K) (xs : List K) :
    countTable e.shape e.xmin dx (xs.map (fun x => u * x)) =
      (countTable d.shape d.xmin dx xs).map (fun p => (u * p.1, v * p.2)) := by
  unfold LF.countTable
  have e1 : (xs.map (fun x => u * x)).reverse.map (LF.cutoff e.xmin e.shape) =
      (xs.reverse.map (LF.cutoff d.xmin d.shape)).map (fun y => v * y) := by
    rw [← List.map_reverse, List.map_map, List.map_map]
    exact List.map_congr_left (fun x _ => h.cutoff hu x)
  have e2 := cumsum_scale v (xs.reverse.map (LF.cutoff d.xmin d.shape)) 0
  rw [mul_zero] at e2
  rw [e1, e2, ← List.map_reverse, List.map_map]
  rw [show ((fun y => y * dx) ∘ fun x => v * x) = (fun y : K => v * y) ∘ (fun y => y * dx) by
    funext y; exact mul_assoc v y dx]
  rw [← List.map_map, List.zip_map]
  rfl

theorem Scaled.quantileTable (h : Scaled d e u v) (hu : 0 < u) (hv : 0 < v) (dx : K) (xs : List K) :
    quantileTable e.shape e.xmin dx (xs.map (fun x => u * x)) =
      (quantileTable d.shape d.xmin dx xs).map (fun p => (1 * p.1, u * p.2)) := by
  simp only [LF.quantileTable]
  have e1 : (xs.map (fun x => u * x)).map (LF.cutoff e.xmin e.shape) =
      (xs.map (LF.cutoff d.xmin d.shape)).map (fun y => v * y) := by
    rw [List.map_map, List.map_map]
    exact List.map_congr_left (fun x _ => h.cutoff hu x)
  have e2 := cumsum_scale v (xs.map (LF.cutoff d.xmin d.shape)) 0
  rw [mul_zero] at e2
  have e4 : ∀ l : List K, (l.map (fun y => v * y)).map (fun y => y * dx) =
      (l.map (fun y => y * dx)).map (fun y => v * y) := by
    intro l
    rw [List.map_map, List.map_map]
    exact List.map_congr_left (fun y _ => mul_assoc v y dx)
  rw [e1, e2, e4]
  obtain ⟨ys, hys⟩ : ∃ ys, ys = (cumsum 0 (xs.map (LF.cutoff d.xmin d.shape))).map (fun y => y * dx) := ⟨_, rfl⟩
  rw [← hys]
  have e3 : (ys.map (fun y => v * y)).map (fun y => y / (ys.map (fun y => v * y)).getLastD 1) =
      (ys.map (fun y => y / ys.getLastD 1)).map (fun y => 1 * y) := by
    cases ys using List.reverseRecOn with
    | nil => rfl
    | append_singleton l a =>
      rw [List.map_map, List.map_map]
      refine List.map_congr_left (fun y _ => ?_)
      simp only [Function.comp, List.map_append, List.map_cons, List.map_nil, List.getLastD_concat]
      rw [one_mul, mul_div_mul_left _ _ hv.ne']
  rw [e3, List.zip_map]
  rfl

end scale

theorem logs (erf : ℝ → ℝ) : Logs (realFn erf) :=
  ⟨realFn_logs.strict, realFn_logs.log_pow, realFn_logs.pow_log, realFn_logs.shift, realFn_logs.pow_pos,
    realFn_logs.exp_pos⟩

theorem nodes_scale (erf : ℝ → ℝ) (u m : ℝ) (hu : 0 < u) (hm : 0 < m) :
    nodes (realFn erf) (u * m) = (nodes (realFn erf) m).map (fun x => u * x) := by
  unfold nodes AM.linspace
  rw [List.map_map, List.map_map, List.map_map]
  refine List.map_congr_left (fun i _ => ?_)
  have hl : (realFn erf).log10 (u * m) = (realFn erf).log10 u + (realFn erf).log10 m := by
    show Real.log (u * m) / Real.log 10 = Real.log u / Real.log 10 + Real.log m / Real.log 10
    rw [Real.log_mul hu.ne' hm.ne', add_div]
  have hp : ∀ a b, (realFn erf).pow 10 (a + b) = (realFn erf).pow 10 a * (realFn erf).pow 10 b :=
    fun a b => Real.rpow_add (by norm_num) a b
  simp only [Function.comp]
  rw [hl]
  have := (logs erf).pow_log u hu
  conv_rhs => rw [← this]
  rw [← hp]
  congr 1
  ring

theorem rescaled (erf : ℝ → ℝ) {d e : Tab ℝ} {u v : ℝ} (h : Scaled d e u v) (hu : 0 < u) (hv : 0 < v)
    (hm : 0 < d.xmin) : Rescaled (answers erf d) (answers erf e) u v := by
  have hm' : 0 < e.xmin := by rw [h.xmin]; exact mul_pos hu hm
  have hn : nodes (realFn erf) e.xmin = (nodes (realFn erf) d.xmin).map (fun x => u * x) := by
    rw [h.xmin]; exact nodes_scale erf u d.xmin hu hm
  have hs : spacing (realFn erf) (nodes (realFn erf) e.xmin) = spacing (realFn erf) (nodes (realFn erf) d.xmin) := by
    rw [spacing_nodes _ (logs erf), spacing_nodes _ (logs erf)]
  have hc : ∀ x, countAbove e.shape e.xmin (spacing (realFn erf) (nodes (realFn erf) e.xmin))
      (nodes (realFn erf) e.xmin) (u * x) = v * countAbove d.shape d.xmin
        (spacing (realFn erf) (nodes (realFn erf) d.xmin)) (nodes (realFn erf) d.xmin) x := by
    intro x
    unfold countAbove
    rw [hs, hn, h.countTable hu, interpD_scale u v hu]
  have hcm : countAbove e.shape e.xmin (spacing (realFn erf) (nodes (realFn erf) e.xmin))
      (nodes (realFn erf) e.xmin) e.xmin = v * countAbove d.shape d.xmin
        (spacing (realFn erf) (nodes (realFn erf) d.xmin)) (nodes (realFn erf) d.xmin) d.xmin := by
    conv_lhs => arg 5; rw [h.xmin]
    exact hc _
  have z : ∀ a : ℝ, (v * a = 0) = (a = 0) := fun a => by simp [hv.ne']
  refine ⟨?_, ?_, ?_, ?_⟩
  · intro x
    simp only [answers, Tab.count]
    exact hc x
  · intro x
    show e.cdf _ _ = d.cdf _ _
    unfold Tab.cdf cdfTable
    rw [hc, hcm, h.accepted]
    simp only [h.xmin, mul_assoc, mul_le_mul_iff_right₀ hu, mul_lt_mul_iff_right₀ hu, z,
      ← mul_sub, mul_div_mul_left _ _ hv.ne']
  · intro x
    show e.pdf _ _ = d.pdf _ _
    unfold Tab.pdf pdfTable
    rw [hcm, h.accepted, h.cutoff hu]
    simp only [h.xmin, mul_assoc, mul_lt_mul_iff_right₀ hu, z, mul_div_mul_left _ _ hv.ne']
  · intro q
    show e.ppf _ _ = (d.ppf _ _).map _
    unfold Tab.ppf ppfTable
    rw [hs, hn, h.quantileTable hu hv, h.accepted, h.xmin]
    have := interpD_scale 1 u one_pos q (LF.quantileTable d.shape d.xmin
      (spacing (realFn erf) (nodes (realFn erf) d.xmin)) (nodes (realFn erf) d.xmin))
    rw [one_mul] at this
    rw [this]
    split
    · rfl
    · split
      · rfl
      · split
        · simp only [Option.map_some, mul_assoc]
        · rfl

/-- C142. In other units of luminosity, and with more objects, a modified Schechter function gives the
same answers: luminosities are multiplied by the unit, numbers by the amplitude. -/
theorem C142_modified_units (erf : ℝ → ℝ) (phi0 x0 alpha sigma xmin u v : ℝ) (hu : 0 < u) (hv : 0 < v)
    (hm : 0 < xmin) :
    Rescaled (answers erf (modified (realFn erf) phi0 x0 alpha sigma xmin))
      (answers erf (modified (realFn erf) (v * phi0) (u * x0) alpha sigma (u * xmin))) u v := by
  refine rescaled erf ⟨rfl, ?_, ?_⟩ hu hv hm
  · have n1 : ∀ a : ℝ, (u * a ≤ 0) = (a ≤ 0) := fun a => by
      rw [eq_iff_iff]
      constructor
      · intro h; by_contra h'; exact absurd (mul_pos hu (not_le.1 h')) (not_lt.2 h)
      · intro h; exact mul_nonpos_of_nonneg_of_nonpos hu.le h
    simp only [modified, n1]
  · intro x
    show modSchechter _ _ _ _ _ _ = _ * modSchechter _ _ _ _ _ _
    unfold modSchechter
    rw [mul_div_mul_left _ _ hu.ne']
    ring

/-- C142. The same for the double power law. -/
theorem C142_doubled_units (erf : ℝ → ℝ) (phi0 x0 alpha beta xmin u v : ℝ) (hu : 0 < u) (hv : 0 < v)
    (hm : 0 < xmin) :
    Rescaled (answers erf (doubled (realFn erf) phi0 x0 alpha beta xmin))
      (answers erf (doubled (realFn erf) (v * phi0) (u * x0) alpha beta (u * xmin))) u v := by
  refine rescaled erf ⟨rfl, ?_, ?_⟩ hu hv hm
  · have n1 : ∀ a : ℝ, (u * a ≤ 0) = (a ≤ 0) := fun a => by
      rw [eq_iff_iff]
      constructor
      · intro h; by_contra h'; exact absurd (mul_pos hu (not_le.1 h')) (not_lt.2 h)
      · intro h; exact mul_nonpos_of_nonneg_of_nonpos hu.le h
    simp only [doubled, n1]
  · intro x
    show doublePower _ _ _ _ _ _ = _ * doublePower _ _ _ _ _ _
    unfold doublePower
    rw [mul_div_mul_left _ _ hu.ne']
    ring

/-- The infrared luminosity function of the repository has the expected shape, and in units of
10^10 suns the same fractions. -/
example : FaintEnd (modifiedLum (fun _ => 0) (1 / 100) (10 ^ 10) (12 / 10) (1 / 2)) (1 / 100) (10 ^ 10)
      (1 - 12 / 10) ∧
    Rarer (modifiedLum (fun _ => 0) (1 / 100) (10 ^ 10) (12 / 10) (1 / 2)) ∧
    ∃ c, (modified (realFn fun _ => 0) (1 / 100) (10 ^ 10) (12 / 10) (1 / 2) (10 ^ 8)).cdf
        (realFn fun _ => 0) (10 ^ 9) = some c ∧
      (modified (realFn fun _ => 0) (1 / 100) 1 (12 / 10) (1 / 2) (1 / 100)).cdf
        (realFn fun _ => 0) (1 / 10) = some c := by
  refine ⟨(C142_modified _ _ _ _ _ (by norm_num) (by norm_num) (by norm_num)).2.1,
    C142_modified_rarer _ _ _ _ _ (by norm_num) (by norm_num) (by norm_num) (by norm_num), ?_⟩
  obtain ⟨c, hc, -, -⟩ := (C91_cumulative _ realFn_logs
    (modified (realFn (fun _ => 0)) (1 / 100) (10 ^ 10) (12 / 10) (1 / 2) (10 ^ 8))
    (by simp [modified]) (by simp [modified])
    (modified_positive _ realFn_logs _ _ _ _ _ (by norm_num) (by norm_num) (by norm_num))).fraction (10 ^ 9)
  have h := (C142_modified_units (fun _ => 0) (1 / 100) (10 ^ 10) (12 / 10) (1 / 2) (10 ^ 8) (1 / 10 ^ 10) 1
    (by norm_num) one_pos (by norm_num)).cdf (10 ^ 9)
  refine ⟨c, hc, ?_⟩
  rw [← hc]
  have h' : Tab.cdf (realFn fun _ => 0) (modified (realFn fun _ => 0) (1 * (1 / 100)) (1 / 10 ^ 10 * 10 ^ 10)
      (12 / 10) (1 / 2) (1 / 10 ^ 10 * 10 ^ 8)) (1 / 10 ^ 10 * 10 ^ 9) = _ := h
  rw [show (1 : ℝ) * (1 / 100) = 1 / 100 by norm_num, show (1 : ℝ) / 10 ^ 10 * 10 ^ 10 = 1 by norm_num,
    show (1 : ℝ) / 10 ^ 10 * 10 ^ 8 = 1 / 100 by norm_num,
    show (1 : ℝ) / 10 ^ 10 * 10 ^ 9 = 1 / 10 by norm_num] at h'
  exact h'

end Verif.LF
