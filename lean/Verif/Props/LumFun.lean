import Verif.Lemmas.LumTable
import Verif.Props.Galprops

/-!
# Properties of the tabulated luminosity functions
-/

set_option linter.unusedSectionVars false

namespace Verif.LF

open Verif.Gal (Fn)
open Spec

variable {K : Type} [Field K] [LinearOrder K] [IsStrictOrderedRing K]

theorem nodes_length (fn : Fn K) (xmin : K) : (nodes fn xmin).length = 10001 := by
  unfold nodes
  rw [List.length_map, AM.linspace_length]

theorem nodes_get (fn : Fn K) (xmin : K) (i : ℕ) (hi : i < 10001) :
    (nodes fn xmin)[i]? = some (node fn xmin i) := by
  unfold nodes node
  rw [List.getElem?_map, AM.linspace_get _ _ _ _ hi, Option.map_some]
  congr 2
  push_cast
  ring

theorem nodes_strict (fn : Fn K) (hf : Logs fn) (xmin : K) : (nodes fn xmin).Pairwise (· < ·) := by
  unfold nodes
  rw [List.pairwise_map]
  exact (AM.linspace_strict _ _ _ (by linarith)).imp (fun h => hf.strict _ _ h)

theorem spacing_nodes (fn : Fn K) (hf : Logs fn) (xmin : K) : spacing fn (nodes fn xmin) = 1 / 500 := by
  have h0 := nodes_get fn xmin 0 (by omega)
  have h1 := nodes_get fn xmin 1 (by omega)
  generalize nodes fn xmin = l at h0 h1
  match l, h0, h1 with
  | a :: b :: l, h0, h1 =>
    simp at h0 h1
    unfold spacing
    rw [h0, h1]
    show fn.log10 (node fn xmin 1) - fn.log10 (node fn xmin 0) = _
    unfold node
    rw [hf.log_pow, hf.log_pow]
    simp

theorem node_zero (fn : Fn K) (hf : Logs fn) (xmin : K) (hx : 0 < xmin) : node fn xmin 0 = xmin := by
  unfold node
  simp [hf.pow_log xmin hx]

theorem node_last (fn : Fn K) (hf : Logs fn) (xmin : K) (hx : 0 < xmin) :
    node fn xmin 10000 = xmin * 10 ^ 20 := by
  unfold node
  have : fn.log10 xmin + ((10000 : ℕ) : K) / 500 = fn.log10 xmin + 20 := by norm_num
  rw [this, hf.shift, hf.pow_log xmin hx]

theorem node_lt (fn : Fn K) (hf : Logs fn) (xmin : K) {i j : ℕ} (h : i < j) :
    node fn xmin i < node fn xmin j := by
  unfold node
  apply hf.strict
  have : (i : K) < j := by exact_mod_cast h
  linarith

theorem node_le (fn : Fn K) (hf : Logs fn) (xmin : K) {i j : ℕ} (h : i ≤ j) :
    node fn xmin i ≤ node fn xmin j := by
  rcases Nat.lt_or_ge i j with hlt | hge
  · exact (node_lt fn hf xmin hlt).le
  · have : i = j := by omega
    subst this; exact le_refl _

theorem good (fn : Fn K) (hf : Logs fn) (d : Tab K) (hx : 0 < d.xmin) (hp : Positive d.shape d.xmin) :
    Good d.shape d.xmin (spacing fn (nodes fn d.xmin)) (nodes fn d.xmin) where
  strict := nodes_strict fn hf d.xmin
  first := by rw [nodes_get _ _ _ (by omega), node_zero fn hf d.xmin hx]
  pos := hp
  dx := by rw [spacing_nodes fn hf]; norm_num

theorem wt_take (fn : Fn K) (hf : Logs fn) (f : K → K) (xmin : K) (hx : 0 < xmin) (i : ℕ) (hi : i ≤ 10001) :
    ((wt f xmin (nodes fn xmin)).take i).sum = sumBelow fn f xmin i := by
  induction i with
  | zero => simp [sumBelow]
  | succ i ih =>
    have hn := nodes_get fn xmin i (by omega)
    rw [take_sum_succ _ i (f (node fn xmin i)), ih (by omega), sumBelow]
    unfold wt
    rw [List.getElem?_map, hn, Option.map_some]
    unfold cutoff
    rw [if_neg]
    have := node_le fn hf xmin (Nat.zero_le i)
    rw [node_zero fn hf xmin hx] at this
    exact not_lt.2 this

theorem wt_sum (fn : Fn K) (hf : Logs fn) (f : K → K) (xmin : K) (hx : 0 < xmin) :
    (wt f xmin (nodes fn xmin)).sum = sumBelow fn f xmin 10001 := by
  rw [← wt_take fn hf f xmin hx 10001 (le_refl _), sum_eq_take, wt_length, nodes_length]

/-! ## The number of objects above a value -/

/-- `lum_function_int` at the values of the table is the sum of the luminosity function over them and all
higher ones, times the step of 1/500 in the logarithm; below the table it is the sum of all. -/
theorem C91_count (fn : Fn K) (hf : Logs fn) (d : Tab K) (hx : 0 < d.xmin) (hp : Positive d.shape d.xmin) :
    (∀ i, i < 10001 → d.count fn (node fn d.xmin i) =
      (sumBelow fn d.shape d.xmin 10001 - sumBelow fn d.shape d.xmin i) / 500) ∧
    (∀ x, x ≤ d.xmin → d.count fn x = sumBelow fn d.shape d.xmin 10001 / 500) := by
  have g := good fn hf d hx hp
  constructor
  · intro i hi
    have h := interpD_at _ (countTable_strict g) i _ (countTable_get i _ (nodes_get fn d.xmin i hi))
    have e : ((wt d.shape d.xmin (nodes fn d.xmin)).drop i).sum =
        sumBelow fn d.shape d.xmin 10001 - sumBelow fn d.shape d.xmin i := by
      rw [← wt_sum fn hf _ _ hx, ← wt_take fn hf _ _ hx i hi.le,
        ← take_sum_add_drop (wt d.shape d.xmin (nodes fn d.xmin)) i]
      ring
    unfold Tab.count countAbove
    simp only at h
    rw [h, e, spacing_nodes fn hf]
    ring
  · intro x hle
    have h0 := countTable_get (shape := d.shape) (xmin := d.xmin) (dx := spacing fn (nodes fn d.xmin)) 0 _ g.first
    have e : d.count fn x = ((wt d.shape d.xmin (nodes fn d.xmin)).drop 0).sum * (1 / 500) := by
      unfold Tab.count countAbove
      rw [← spacing_nodes fn hf d.xmin]
      rcases lt_or_eq_of_le hle with h | h
      · rw [interpD_below _ _ x h0 h]
      · have h' := interpD_at _ (countTable_strict g) 0 _ h0
        simp only at h'
        rw [h, h']
    rw [e, List.drop_zero, wt_sum fn hf _ _ hx]
    ring

/-! ## The cumulative distribution -/

theorem cdf_inside (fn : Fn K) (hf : Logs fn) (d : Tab K) (ha : d.accepted = true) (hx : 0 < d.xmin)
    (hp : Positive d.shape d.xmin) (x : K) (h1 : d.xmin < x) (h2 : x < d.xmin * 10 ^ 20) :
    d.cdf fn x = some (interpD (cumTable d.shape d.xmin (spacing fn (nodes fn d.xmin)) (nodes fn d.xmin)) x) := by
  unfold Tab.cdf
  rw [if_neg (by simp [ha]), if_neg (not_le.2 h1), if_neg (not_le.2 h2),
    cdfTable_eq (good fn hf d hx hp) x h1.le]

/-- The cumulative distribution is a fraction, increases and is zero below `xmin`. -/
theorem C91_cumulative (fn : Fn K) (hf : Logs fn) (d : Tab K) (ha : d.accepted = true) (hx : 0 < d.xmin)
    (hp : Positive d.shape d.xmin) : Cumulative (d.cdf fn) d.xmin := by
  have g := good fn hf d hx hp
  have hlow : ∀ x, x ≤ d.xmin → d.cdf fn x = some 0 := by
    intro x h
    unfold Tab.cdf
    rw [if_neg (by simp [ha]), if_pos h]
  have hhigh : ∀ x, d.xmin < x → d.xmin * 10 ^ 20 ≤ x → d.cdf fn x = some 1 := by
    intro x h h'
    unfold Tab.cdf
    rw [if_neg (by simp [ha]), if_neg (not_le.2 h), if_pos h']
  have hfr : ∀ x, ∃ c, d.cdf fn x = some c ∧ 0 ≤ c ∧ c ≤ 1 := by
    intro x
    rcases le_or_gt x d.xmin with h | h
    · exact ⟨0, hlow x h, le_refl _, zero_le_one⟩
    · rcases le_or_gt (d.xmin * 10 ^ 20) x with h' | h'
      · exact ⟨1, hhigh x h h', zero_le_one, le_refl _⟩
      · exact ⟨_, cdf_inside fn hf d ha hx hp x h h', cum_fraction g x h.le⟩
  refine ⟨hfr, ?_, hlow⟩
  intro x y c e hxy hc he
  rcases le_or_gt x d.xmin with h | h
  · rw [hlow x h] at hc
    obtain ⟨e', he', h0, _⟩ := hfr y
    rw [he] at he'
    simp only [Option.some.injEq] at hc he'
    rw [← hc, he']; exact h0
  · rcases le_or_gt (d.xmin * 10 ^ 20) y with h' | h'
    · rw [hhigh y (lt_of_lt_of_le h hxy) h'] at he
      obtain ⟨c', hc', _, h1⟩ := hfr x
      rw [hc] at hc'
      simp only [Option.some.injEq] at he hc'
      rw [← he, hc']; exact h1
    · rw [cdf_inside fn hf d ha hx hp x h (lt_of_le_of_lt hxy h')] at hc
      rw [cdf_inside fn hf d ha hx hp y (lt_of_lt_of_le h hxy) h'] at he
      simp only [Option.some.injEq] at hc he
      rw [← hc, ← he]
      exact interpD_mono _ (cumTable_incr g) x y hxy

/-- At the values of the table the cumulative distribution is the part of the sum below. -/
theorem C91_node (fn : Fn K) (hf : Logs fn) (d : Tab K) (ha : d.accepted = true) (hx : 0 < d.xmin)
    (hp : Positive d.shape d.xmin) (i : ℕ) (hi : i < 10000) :
    d.cdf fn (node fn d.xmin i) =
      some (sumBelow fn d.shape d.xmin i / sumBelow fn d.shape d.xmin 10001) := by
  rcases Nat.eq_zero_or_pos i with rfl | h0
  · rw [node_zero fn hf d.xmin hx, (C91_cumulative fn hf d ha hx hp).below d.xmin (le_refl _)]
    show some 0 = some (0 / _)
    rw [zero_div]
  · have g := good fn hf d hx hp
    have h1 := node_lt fn hf d.xmin h0
    have h2 := node_lt fn hf d.xmin hi
    rw [node_zero fn hf d.xmin hx] at h1
    rw [node_last fn hf d.xmin hx] at h2
    rw [cdf_inside fn hf d ha hx hp _ h1 h2]
    have h := interpD_at _ (cumTable_strict g) i _ (cumTable_get g i _ (nodes_get fn d.xmin i (by omega)))
    simp only at h
    rw [h, wt_take fn hf _ _ hx i (by omega), wt_sum fn hf _ _ hx]

/-! ## Quantiles -/

theorem sumBelow_lt (fn : Fn K) (hf : Logs fn) (f : K → K) (xmin : K) (hx : 0 < xmin) (hp : Positive f xmin)
    {i j : ℕ} (h : i < j) : sumBelow fn f xmin i < sumBelow fn f xmin j := by
  induction j with
  | zero => omega
  | succ j ih =>
    have hpos : 0 < f (node fn xmin j) := by
      apply hp
      have := node_le fn hf xmin (Nat.zero_le j)
      rw [node_zero fn hf xmin hx] at this
      exact this
    rw [sumBelow]
    rcases Nat.lt_or_ge i j with hlt | hge
    · linarith [ih hlt]
    · have : i = j := by omega
      subst this; linarith

theorem ppf_inside (fn : Fn K) (d : Tab K) (ha : d.accepted = true) (q : K) (h0 : 0 < q) (h1 : q < 1) :
    d.ppf fn q =
      some (ppfTable d.shape d.xmin (spacing fn (nodes fn d.xmin)) (nodes fn d.xmin) q) := by
  unfold Tab.ppf
  rw [if_neg (by simp [ha, h0.le, h1.le]), if_neg h0.ne', if_neg h1.ne]

theorem quantile_get (fn : Fn K) (hf : Logs fn) (d : Tab K) (hx : 0 < d.xmin)
    (hp : Positive d.shape d.xmin) (i : ℕ) (hi : i < 10001) :
    (quantileTable d.shape d.xmin (spacing fn (nodes fn d.xmin)) (nodes fn d.xmin))[i]? =
      some (sumBelow fn d.shape d.xmin (i + 1) / sumBelow fn d.shape d.xmin 10001, node fn d.xmin i) := by
  rw [quantileTable_get (good fn hf d hx hp) i _ (nodes_get fn d.xmin i hi),
    wt_take fn hf _ _ hx (i + 1) (by omega), wt_sum fn hf _ _ hx]

/-- **Not undone.** The quantile of the cumulative fraction of a value of the table is not this value but
the one before it: `ppf` is too small by the whole step of the table. -/
theorem C91_quantile_one_less (fn : Fn K) (hf : Logs fn) (d : Tab K) (ha : d.accepted = true)
    (hx : 0 < d.xmin) (hp : Positive d.shape d.xmin) (i : ℕ) (hi : i + 1 < 10000) :
    ∃ c, d.cdf fn (node fn d.xmin (i + 1)) = some c ∧
      d.ppf fn c = some (node fn d.xmin i) ∧ node fn d.xmin i < node fn d.xmin (i + 1) := by
  have g := good fn hf d hx hp
  refine ⟨_, C91_node fn hf d ha hx hp (i + 1) hi, ?_, node_lt fn hf d.xmin (Nat.lt_succ_self i)⟩
  have hT : 0 < sumBelow fn d.shape d.xmin 10001 := sumBelow_lt fn hf _ _ hx hp (i := 0) (by omega)
  have hs : 0 < sumBelow fn d.shape d.xmin (i + 1) := sumBelow_lt fn hf _ _ hx hp (i := 0) (by omega)
  rw [ppf_inside fn d ha _ (div_pos hs hT) ?_]
  · have h := interpD_at _ (quantileTable_strict g) i _ (quantile_get fn hf d hx hp i (by omega))
    simp only at h
    unfold ppfTable
    rw [h]
  · rw [div_lt_one hT]
    exact sumBelow_lt fn hf _ _ hx hp (by omega)

/-- What holds: between two neighbouring values of the table the quantile of the cumulative fraction is
at least the value before them and at most the lower of the two. -/
theorem C91_quantile_partial (fn : Fn K) (hf : Logs fn) (d : Tab K) (ha : d.accepted = true)
    (hx : 0 < d.xmin) (hp : Positive d.shape d.xmin) (i : ℕ) (hi : i + 2 < 10000) (x : K)
    (h1 : node fn d.xmin (i + 1) ≤ x) (h2 : x ≤ node fn d.xmin (i + 2)) :
    ∃ c y, d.cdf fn x = some c ∧ d.ppf fn c = some y ∧ node fn d.xmin i ≤ y ∧ y ≤ node fn d.xmin (i + 1) := by
  have g := good fn hf d hx hp
  have hC := C91_cumulative fn hf d ha hx hp
  obtain ⟨c, hc, _, _⟩ := hC.fraction x
  have c1 := hC.increasing _ _ _ _ h1 (C91_node fn hf d ha hx hp (i + 1) (by omega)) hc
  have c2 := hC.increasing _ _ _ _ h2 hc (C91_node fn hf d ha hx hp (i + 2) (by omega))
  have hT : 0 < sumBelow fn d.shape d.xmin 10001 := sumBelow_lt fn hf _ _ hx hp (i := 0) (by omega)
  have hs : 0 < sumBelow fn d.shape d.xmin (i + 1) := sumBelow_lt fn hf _ _ hx hp (i := 0) (by omega)
  have hlt : sumBelow fn d.shape d.xmin (i + 2) / sumBelow fn d.shape d.xmin 10001 < 1 := by
    rw [div_lt_one hT]
    exact sumBelow_lt fn hf _ _ hx hp (by omega)
  refine ⟨c, _, hc, ppf_inside fn d ha c (lt_of_lt_of_le (div_pos hs hT) c1) (lt_of_le_of_lt c2 hlt), ?_⟩
  exact interpD_between _ (quantileTable_strict g) (quantileTable_incr g) c i (i + 1) _ _
    (quantile_get fn hf d hx hp i (by omega)) (quantile_get fn hf d hx hp (i + 1) (by omega)) c1 c2

/-- Quantiles increase. -/
theorem C91_quantiles_increase (fn : Fn K) (hf : Logs fn) (d : Tab K) (ha : d.accepted = true)
    (hx : 0 < d.xmin) (hp : Positive d.shape d.xmin) (q r x y : K) (hq : q ≤ r)
    (h1 : d.ppf fn q = some x) (h2 : d.ppf fn r = some y) : x ≤ y := by
  have g := good fn hf d hx hp
  have hr : ¬ (d.accepted = false ∨ r < 0 ∨ 1 < r) := by
    intro h; unfold Tab.ppf at h2; rw [if_pos h] at h2; cases h2
  have hq' : ¬ (d.accepted = false ∨ q < 0 ∨ 1 < q) := by
    intro h; unfold Tab.ppf at h1; rw [if_pos h] at h1; cases h1
  push Not at hr hq'
  have hbox : ∀ t, d.xmin ≤ ppfTable d.shape d.xmin (spacing fn (nodes fn d.xmin)) (nodes fn d.xmin) t ∧
      ppfTable d.shape d.xmin (spacing fn (nodes fn d.xmin)) (nodes fn d.xmin) t ≤ d.xmin * 10 ^ 20 := by
    intro t
    have q0 := quantile_get fn hf d hx hp 0 (by omega)
    have q9 := quantile_get fn hf d hx hp 10000 (by omega)
    rw [node_zero fn hf d.xmin hx] at q0
    rw [node_last fn hf d.xmin hx] at q9
    have hle := node_le fn hf d.xmin (Nat.zero_le 10000)
    rw [node_zero fn hf d.xmin hx, node_last fn hf d.xmin hx] at hle
    unfold ppfTable
    constructor
    · rcases lt_or_ge t (sumBelow fn d.shape d.xmin (0 + 1) / sumBelow fn d.shape d.xmin 10001) with h | h
      · rw [interpD_below _ _ _ q0 h]
      · have := interpD_mono _ (quantileTable_incr g) _ _ h
        have h' := interpD_at _ (quantileTable_strict g) 0 _ q0
        simp only at h'
        rw [h'] at this
        exact this
    · rcases le_or_gt t (sumBelow fn d.shape d.xmin (10000 + 1) / sumBelow fn d.shape d.xmin 10001) with h | h
      · have := interpD_mono _ (quantileTable_incr g) _ _ h
        have h' := interpD_at _ (quantileTable_strict g) 10000 _ q9
        simp only at h'
        rw [h'] at this
        exact this
      · rw [interpD_last _ t (quantileTable_strict g) _
          (by rw [quantileTable_length, nodes_length]; exact q9) h.le]
  rcases lt_or_eq_of_le hq'.2.1 with h0 | h0
  · rcases lt_or_eq_of_le hr.2.2 with h9 | h9
    · rw [ppf_inside fn d ha q h0 (lt_of_le_of_lt hq h9)] at h1
      rw [ppf_inside fn d ha r (lt_of_lt_of_le h0 hq) h9] at h2
      simp only [Option.some.injEq] at h1 h2
      rw [← h1, ← h2]
      exact interpD_mono _ (quantileTable_incr g) q r hq
    · subst h9
      have e2 : y = d.xmin * 10 ^ 20 := by
        unfold Tab.ppf at h2
        rw [if_neg (by simp [ha]), if_neg one_ne_zero, if_pos rfl] at h2
        exact (Option.some.inj h2).symm
      rcases lt_or_eq_of_le hq'.2.2 with h8 | h8
      · rw [ppf_inside fn d ha q h0 h8] at h1
        simp only [Option.some.injEq] at h1
        rw [← h1, e2]; exact (hbox q).2
      · subst h8
        rw [h1] at h2; cases h2; exact le_refl _
  · have e1 : x = d.xmin := by
      unfold Tab.ppf at h1
      rw [if_neg (by simp [ha, ← h0]), if_pos h0.symm] at h1
      exact (Option.some.inj h1).symm
    rw [e1]
    rcases lt_or_eq_of_le hr.2.1 with h8 | h8
    · rcases lt_or_eq_of_le hr.2.2 with h9 | h9
      · rw [ppf_inside fn d ha r h8 h9] at h2
        simp only [Option.some.injEq] at h2
        rw [← h2]; exact (hbox r).1
      · have e2 : y = d.xmin * 10 ^ 20 := by
          unfold Tab.ppf at h2
          rw [if_neg (by simp [ha, h9]), if_neg h8.ne', if_pos h9] at h2
          exact (Option.some.inj h2).symm
        rw [e2]
        exact le_trans (hbox 0).1 (hbox 0).2
    · have e2 : y = d.xmin := by
        unfold Tab.ppf at h2
        rw [if_neg (by simp [ha, ← h8]), if_pos h8.symm] at h2
        exact (Option.some.inj h2).symm
      rw [e2]

/-! ## The two distributions -/

theorem modified_positive (fn : Fn K) (hf : Logs fn) (phi0 x0 alpha sigma xmin : K) (hp : 0 < phi0)
    (hx : 0 < x0) (hm : 0 < xmin) : Positive (modified fn phi0 x0 alpha sigma xmin).shape xmin := by
  intro x h
  have : 0 < x / x0 := div_pos (lt_of_lt_of_le hm h) hx
  exact mul_pos (mul_pos hp (hf.pow_pos _ _ this)) (hf.exp_pos _)

theorem doubled_positive (fn : Fn K) (hf : Logs fn) (phi0 x0 alpha beta xmin : K) (hp : 0 < phi0)
    (hx : 0 < x0) (hm : 0 < xmin) : Positive (doubled fn phi0 x0 alpha beta xmin).shape xmin := by
  intro x h
  have : 0 < x / x0 := div_pos (lt_of_lt_of_le hm h) hx
  exact mul_pos hp (inv_pos.2 (add_pos (hf.pow_pos _ _ this) (hf.pow_pos _ _ this)))

/-- The full property: the cumulative distribution of every accepted modified Schechter function or double
power law is one, and the quantile function undoes it inside the support. -/
def C91_full : Prop :=
  ∀ (fn : Fn ℝ) (d : Tab ℝ), Logs fn → d.accepted = true → 0 < d.xmin → Positive d.shape d.xmin →
    ((∃ p x a s m, d = modified fn p x a s m) ∨ (∃ p x a b m, d = doubled fn p x a b m)) →
    Cumulative (d.cdf fn) d.xmin ∧
      ∀ x, d.xmin < x → x < d.xmin * 10 ^ 20 → Undone (d.cdf fn) (d.ppf fn) x

theorem realFn_logs : Logs (Gal.realFn (fun _ => 0)) where
  strict := fun a b h => Real.rpow_lt_rpow_of_exponent_lt (by norm_num) h
  log_pow := fun a => by
    show Real.log ((10 : ℝ) ^ a) / Real.log 10 = a
    rw [Real.log_rpow (by norm_num)]
    have : Real.log 10 ≠ 0 := (Real.log_pos (by norm_num)).ne'
    field_simp
  pow_log := fun x hx => by
    show (10 : ℝ) ^ (Real.log x / Real.log 10) = x
    rw [Real.rpow_def_of_pos (by norm_num)]
    have : Real.log 10 ≠ 0 := (Real.log_pos (by norm_num)).ne'
    rw [mul_div_cancel₀ _ this, Real.exp_log hx]
  shift := fun a => by
    show (10 : ℝ) ^ (a + 20) = (10 : ℝ) ^ a * 10 ^ 20
    rw [Real.rpow_add (by norm_num)]
    norm_num
  pow_pos := fun x y h => Real.rpow_pos_of_pos h y
  exp_pos := Real.exp_pos

theorem C91_full_false : ¬ C91_full := by
  intro h
  have hp := doubled_positive _ realFn_logs 1 1 1 2 1 one_pos one_pos one_pos
  have ha : (doubled (Gal.realFn (fun _ => 0)) 1 1 1 2 1).accepted = true := by
    simp [doubled]
  obtain ⟨_, hu⟩ := h _ (doubled (Gal.realFn (fun _ => 0)) 1 1 1 2 1) realFn_logs ha one_pos hp
    (.inr ⟨1, 1, 1, 2, 1, rfl⟩)
  obtain ⟨c, hc, hq, hlt⟩ := C91_quantile_one_less _ realFn_logs _ ha one_pos hp 0 (by omega)
  have e : (doubled (Gal.realFn (fun _ => 0)) 1 1 1 2 1).xmin = 1 := rfl
  have h1 := node_lt _ realFn_logs (1 : ℝ) (i := 0) (j := 1) (by omega)
  have h2 := node_lt _ realFn_logs (1 : ℝ) (i := 1) (j := 10000) (by omega)
  rw [node_zero _ realFn_logs 1 one_pos] at h1
  rw [node_last _ realFn_logs 1 one_pos] at h2
  obtain ⟨c', hc', hq'⟩ := hu (node (Gal.realFn (fun _ => 0)) 1 1) h1 h2
  rw [e] at hc hq hlt
  rw [hc'] at hc
  cases hc
  rw [hq'] at hq
  simp only [Option.some.injEq] at hq
  exact hlt.ne hq.symm

/-- The theorems apply to the infrared luminosity function of the repository. -/
example : ∃ c, (modified (Gal.realFn (fun _ => 0)) (1 / 100) (10 ^ 10) (12 / 10) (1 / 2) (10 ^ 8)).cdf
    (Gal.realFn (fun _ => 0)) (10 ^ 9) = some c ∧ 0 ≤ c ∧ c ≤ 1 :=
  (C91_cumulative _ realFn_logs (modified (Gal.realFn (fun _ => 0)) (1 / 100) (10 ^ 10) (12 / 10) (1 / 2) (10 ^ 8))
    (by simp [modified]) (by simp [modified])
    (modified_positive _ realFn_logs _ _ _ _ _ (by norm_num) (by norm_num) (by norm_num))).fraction _

end Verif.LF
