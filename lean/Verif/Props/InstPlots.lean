import Verif.Lemmas.InstPlots
import Verif.Model.Exc
import Mathlib.Algebra.Order.Field.Rat
import Mathlib.Data.Rat.Floor
import Mathlib.Tactic.NormNum
import Mathlib.Analysis.SpecialFunctions.Pow.Real
import Mathlib.Analysis.SpecialFunctions.Pow.Continuity
import Mathlib.Analysis.Complex.ExponentialBounds

/-!
# C115: reference frequencies and plots of instruments
-/

set_option linter.unusedSectionVars false

namespace Verif.InstPlot

open Verif.Map (Arr)
open Verif.InstPlot.Spec

section search
variable {K : Type} [Field K] [LinearOrder K] [IsStrictOrderedRing K]

/-- One round of the search. -/
theorem search_succ (p10 y : K → K) (n fuel : ℕ) (a b : K) (last : Option K) :
    search p10 y n (fuel + 1) a b last =
      if best y a (points n a b) = a ∨ best y a (points n a b) = b then some none
      else
        match last with
        | some l => if 1 / 100 < |p10 l - p10 (best y a (points n a b))| then search p10 y n fuel (best y a (points n a b) - (b - a) / 4) (best y a (points n a b) + (b - a) / 4) (some (best y a (points n a b)))
            else some (some (best y a (points n a b)))
        | none => search p10 y n fuel (best y a (points n a b) - (b - a) / 4) (best y a (points n a b) + (b - a) / 4) (some (best y a (points n a b))) := by
  rcases last with _ | l <;> rfl

/-- One round finds a point next to the peak. -/
theorem round_peak {y : K → K} {p : K} (hy : Peak y p) (n : ℕ) (a b : K) (hn : 0 < n) (hab : a < b) (h1 : a ≤ p) (h2 : p ≤ b) :
    |best y a (points n a b) - p| ≤ (b - a) / n := by
  obtain ⟨k, hk, he, hmax, -⟩ := chosen y n a b hn hab
  have hnK : (0 : K) < n := by exact_mod_cast hn
  have hs : 0 < (b - a) / (n : K) := div_pos (by linarith) hnK
  have hend : a + (n : K) * ((b - a) / n) = b := by field_simp; ring
  rw [abs_le]
  constructor
  · by_contra hc
    have hlt : best y a (points n a b) + (b - a) / n < p := by linarith
    have hkn : k < n := by
      by_contra hkn
      have : k = n := by omega
      rw [this, hend] at he
      linarith
    have := hmax (k + 1) (by omega)
    have e1 : a + ((k + 1 : ℕ) : K) * ((b - a) / n) = best y a (points n a b) + (b - a) / n := by
      rw [he]; push_cast; ring
    rw [e1] at this
    exact absurd (hy.rises (best y a (points n a b)) _ (by linarith) hlt.le) (not_lt.2 this)
  · by_contra hc
    have hlt : p < best y a (points n a b) - (b - a) / n := by linarith
    obtain ⟨j, rfl⟩ : ∃ j, k = j + 1 := by
      rcases k with _ | j
      · simp only [Nat.cast_zero, zero_mul, add_zero] at he
        rw [he] at hlt
        linarith
      · exact ⟨j, rfl⟩
    have := hmax j (by omega)
    have e1 : a + (j : K) * ((b - a) / n) = best y a (points n a b) - (b - a) / n := by
      rw [he]; push_cast; ring
    rw [e1] at this
    exact absurd (hy.falls _ (best y a (points n a b)) hlt.le (by linarith)) (not_lt.2 this)

/-- The next interval again has the peak in its interior, with half the distance between the points. -/
theorem next_interval {n : ℕ} (hn : 7 ≤ n) {a b e p : K} (hab : a < b) (he : |e - p| ≤ (b - a) / n) :
    (e + (b - a) / 4 - (e - (b - a) / 4)) / n = (b - a) / n / 2 ∧ e - (b - a) / 4 < e + (b - a) / 4 ∧
      e - (b - a) / 4 + (b - a) / n / 2 < p ∧ p + (b - a) / n / 2 < e + (b - a) / 4 := by
  have hn7 : (7 : K) ≤ n := by exact_mod_cast hn
  have hnK : (0 : K) < n := by linarith
  obtain ⟨s, hs⟩ : ∃ s, s = (b - a) / (n : K) := ⟨_, rfl⟩
  have hspan : b - a = n * s := by rw [hs]; field_simp
  have hspos : 0 < s := by rw [hs]; exact div_pos (by linarith) hnK
  rw [← hs] at he ⊢
  rw [abs_le] at he
  have hq : (7 : K) * s ≤ n * s := mul_le_mul_of_nonneg_right hn7 hspos.le
  refine ⟨?_, by linarith, ?_, ?_⟩
  · have : e + (b - a) / 4 - (e - (b - a) / 4) = n * (s / 2) := by rw [hspan]; ring
    rw [this]
    field_simp
  · rw [hspan]; linarith
  · rw [hspan]; linarith

/-- Whatever is found is near the peak. -/
theorem search_peak (p10 : K → K) {y : K → K} {p : K} (hy : Peak y p) {n : ℕ} (hn : 7 ≤ n) (fuel : ℕ) :
    ∀ (a b : K) (last : Option K) (r : Option K), a < b → a + (b - a) / n < p → p + (b - a) / n < b →
      search p10 y n fuel a b last = some r → ∃ e, r = some e ∧ |e - p| ≤ (b - a) / n := by
  induction fuel with
  | zero => intro a b last r _ _ _ h; cases h
  | succ fuel ih =>
    intro a b last r hab h1 h2 h
    have hnK : (0 : K) < n := by exact_mod_cast (by omega : 0 < n)
    have hspos : 0 < (b - a) / (n : K) := div_pos (by linarith) hnK
    have he := round_peak hy n a b (by omega) hab (by linarith) (by linarith)
    obtain ⟨q1, q2, q3, q4⟩ := next_interval hn hab he
    have hedge : ¬ (best y a (points n a b) = a ∨ best y a (points n a b) = b) := by
      rw [abs_le] at he
      rintro (e | e) <;> rw [e] at he <;> linarith
    have go : search p10 y n fuel (best y a (points n a b) - (b - a) / 4) (best y a (points n a b) + (b - a) / 4)
        (some (best y a (points n a b))) = some r → ∃ e, r = some e ∧ |e - p| ≤ (b - a) / n := by
      intro h
      obtain ⟨e, h3, h4⟩ := ih _ _ _ r q2 (by rw [q1]; exact q3) (by rw [q1]; exact q4) h
      refine ⟨e, h3, h4.trans ?_⟩
      rw [q1]
      linarith
    rw [search_succ] at h
    simp only [if_neg hedge] at h
    rcases last with _ | l
    · exact go h
    · simp only at h
      split at h
      · exact go h
      · simp only [Option.some.injEq] at h
        exact ⟨_, h.symm, he⟩

/-- The search ends if `p10` is continuous at the peak. -/
theorem search_ends (p10 : K → K) {y : K → K} {p : K} (hy : Peak y p) {n : ℕ} (hn : 7 ≤ n) (δ : K) (hδ : 0 < δ)
    (hc : ∀ e, |e - p| ≤ δ → |p10 e - p10 p| ≤ 1 / 200) (m : ℕ) :
    ∀ (a b : K) (last : Option K), a < b → a + (b - a) / n < p → p + (b - a) / n < b → (b - a) / n ≤ δ * 2 ^ m →
      (search p10 y n (m + 2) a b last).isSome := by
  have step : ∀ (fuel : ℕ) (a b : K) (last : Option K), a < b → a + (b - a) / n < p → p + (b - a) / n < b →
      (∀ e, |e - p| ≤ (b - a) / n → (∀ l, last = some l → 1 / 100 < |p10 l - p10 e|) →
        (search p10 y n fuel (e - (b - a) / 4) (e + (b - a) / 4) (some e)).isSome) →
      (search p10 y n (fuel + 1) a b last).isSome := by
    intro fuel a b last hab h1 h2 hrec
    have hnK : (0 : K) < n := by exact_mod_cast (by omega : 0 < n)
    have hspos : 0 < (b - a) / (n : K) := div_pos (by linarith) hnK
    have he := round_peak hy n a b (by omega) hab (by linarith) (by linarith)
    have hedge : ¬ (best y a (points n a b) = a ∨ best y a (points n a b) = b) := by
      have he' := he
      rw [abs_le] at he'
      rintro (e | e) <;> rw [e] at he' <;> linarith
    rw [search_succ]
    simp only [if_neg hedge]
    rcases last with _ | l
    · exact hrec _ he (fun l h => by cases h)
    · simp only
      split
      · rename_i hlt
        exact hrec _ he (fun l' h => by cases h; exact hlt)
      · rfl
  induction m with
  | zero =>
    intro a b last hab h1 h2 hs
    simp only [pow_zero, mul_one] at hs
    refine step 1 a b last hab h1 h2 (fun e he _ => ?_)
    obtain ⟨q1, q2, q3, q4⟩ := next_interval hn hab he
    have hnK : (0 : K) < n := by exact_mod_cast (by omega : 0 < n)
    have hspos : 0 < (b - a) / (n : K) := div_pos (by linarith) hnK
    refine step 0 _ _ _ q2 (by rw [q1]; exact q3) (by rw [q1]; exact q4) (fun e' he' hlt => ?_)
    exfalso
    have hbig := hlt e rfl
    rw [q1] at he'
    have d1 := hc e (he.trans hs)
    have d2 := hc e' (he'.trans (by linarith))
    have : |p10 e - p10 e'| ≤ |p10 e - p10 p| + |p10 e' - p10 p| := by
      have := abs_sub_le (p10 e) (p10 p) (p10 e')
      rwa [abs_sub_comm (p10 p) (p10 e')] at this
    have : (1 / 200 : K) + 1 / 200 = 1 / 100 := by norm_num
    linarith
  | succ m ih =>
    intro a b last hab h1 h2 hs
    refine step (m + 2) a b last hab h1 h2 (fun e he _ => ?_)
    obtain ⟨q1, q2, q3, q4⟩ := next_interval hn hab he
    refine ih _ _ _ q2 (by rw [q1]; exact q3) (by rw [q1]; exact q4) ?_
    rw [q1]
    rw [pow_succ] at hs
    linarith

/-- A response that the first round cannot see gives NaN. -/
theorem C115_narrow_unseen (p10 y : K → K) (rounds : ℕ) (h : ∀ e ∈ points 50000 (-20 : K) 20, y e ≤ y (-20)) :
    found p10 y (rounds + 1) = some none := by
  have h20 : (-20 : K) < 20 := by norm_num
  obtain ⟨k, hk, he, -, hfirst⟩ := chosen y 50000 (-20 : K) 20 (by norm_num) h20
  have hk0 : k = 0 := by
    by_contra hc
    have h1 := hfirst 0 (by omega)
    simp only [Nat.cast_zero, zero_mul, add_zero] at h1
    have h2 := h (best y (-20) (points 50000 (-20 : K) 20)) (by
      rw [he]
      unfold points
      exact List.mem_map.2 ⟨k, List.mem_range.2 (by omega), rfl⟩)
    exact absurd h1 (not_lt.2 h2)
  rw [hk0] at he
  simp only [Nat.cast_zero, zero_mul, add_zero] at he
  unfold found
  rw [search_succ]
  simp only [he, true_or, if_true]

/-- A response that is largest at the upper end, or rises beyond it, gives NaN. -/
theorem C115_upper_end (p10 y : K → K) (rounds : ℕ) (h : ∀ e ∈ points 50000 (-20 : K) 20, e < 20 → y e < y 20) :
    found p10 y (rounds + 1) = some none := by
  have h20 : (-20 : K) < 20 := by norm_num
  obtain ⟨k, hk, he, hmax, -⟩ := chosen y 50000 (-20 : K) 20 (by norm_num) h20
  have e1 : ((20 : K) - -20) / ((50000 : ℕ) : K) = 1 / 1250 := by norm_num
  rw [e1] at he hmax
  have hkn : k = 50000 := by
    by_contra hc
    have hlt : k < 50000 := by omega
    have h1 := hmax 50000 le_rfl
    have e2 : (-20 : K) + ((50000 : ℕ) : K) * (1 / 1250) = 20 := by norm_num
    rw [e2] at h1
    have hkK : (k : K) < 50000 := by exact_mod_cast hlt
    have h2 := h (best y (-20) (points 50000 (-20 : K) 20)) (by
      rw [he]
      unfold points
      exact List.mem_map.2 ⟨k, List.mem_range.2 (by omega), by rw [e1]⟩) (by rw [he]; linarith)
    exact absurd h2 (not_lt.2 h1)
  have e3 : best y (-20) (points 50000 (-20 : K) 20) = 20 := by
    rw [he, hkn]
    norm_num
  unfold found
  rw [search_succ]
  simp only [e3, or_true, if_true]

/-- One round for a box. -/
theorem round_box [FloorRing K] {y : K → K} {lo hi : K} (hy : Box y lo hi) (n : ℕ) (a b : K) (hn : 0 < n)
    (h1 : a < lo) (h2 : lo + (b - a) / n < b) (h3 : (b - a) / n ≤ hi - lo) (hab : a < b) :
    lo ≤ best y a (points n a b) ∧ best y a (points n a b) < lo + (b - a) / n := by
  obtain ⟨k, hk, he, hmax, hfirst⟩ := chosen y n a b hn hab
  obtain ⟨h, hpos, hin⟩ := hy.inside
  have hnK : (0 : K) < n := by exact_mod_cast hn
  obtain ⟨s, hs⟩ : ∃ s, s = (b - a) / (n : K) := ⟨_, rfl⟩
  have hspan : b - a = n * s := by rw [hs]; field_simp
  have hspos : 0 < s := by rw [hs]; exact div_pos (by linarith) hnK
  rw [← hs] at he hmax hfirst h2 h3 ⊢
  -- a point inside
  have hq : 0 < (lo - a) / s := div_pos (by linarith) hspos
  obtain ⟨j, hj⟩ : ∃ j : ℕ, ⌈(lo - a) / s⌉ = j := ⟨_, (Int.toNat_of_nonneg (Int.ceil_pos.2 hq).le).symm⟩
  have c1 := Int.le_ceil ((lo - a) / s)
  have c2 := Int.ceil_lt_add_one ((lo - a) / s)
  rw [hj] at c1 c2
  simp only [Int.cast_natCast] at c1 c2
  rw [div_le_iff₀ hspos] at c1
  have c3 : (j : K) * s < lo - a + s := by
    have := mul_lt_mul_of_pos_right c2 hspos
    rw [add_mul, div_mul_cancel₀ _ hspos.ne', one_mul] at this
    exact this
  have hjn : j ≤ n := by
    by_contra hc
    have : (n : K) + 1 ≤ j := by exact_mod_cast not_le.1 hc
    have := mul_le_mul_of_nonneg_right this hspos.le
    linarith
  have hyj : y (a + j * s) = h := hin _ (by linarith) (by linarith)
  have hge : h ≤ y (best y a (points n a b)) := by rw [← hyj]; exact hmax j hjn
  have l1 : lo ≤ best y a (points n a b) := by
    by_contra hc
    rw [hy.below _ (not_le.1 hc)] at hge
    linarith
  have l2 : best y a (points n a b) ≤ hi := by
    by_contra hc
    rw [hy.above _ (not_le.1 hc)] at hge
    linarith
  refine ⟨l1, ?_⟩
  by_contra hc
  obtain ⟨i, rfl⟩ : ∃ i, k = i + 1 := by
    rcases k with _ | i
    · simp only [Nat.cast_zero, zero_mul, add_zero] at he
      linarith
    · exact ⟨i, rfl⟩
  have h4 := hfirst i (by omega)
  have e1 : a + (i : K) * s = best y a (points n a b) - s := by rw [he]; push_cast; ring
  rw [e1, hin _ (by linarith) (by linarith), hin _ l1 l2] at h4
  exact absurd h4 (lt_irrefl _)

/-- For a box the search ends at its lower end. -/
theorem search_box [FloorRing K] (p10 : K → K) {y : K → K} {lo hi : K} (hy : Box y lo hi) {n : ℕ} (hn : 7 ≤ n) (fuel : ℕ) :
    ∀ (a b : K) (last : Option K) (r : Option K), a < b → a < lo → lo + (b - a) / n < b → (b - a) / n ≤ hi - lo →
      search p10 y n fuel a b last = some r → ∃ e, r = some e ∧ lo ≤ e ∧ e < lo + (b - a) / n := by
  induction fuel with
  | zero => intro a b last r _ _ _ _ h; cases h
  | succ fuel ih =>
    intro a b last r hab h1 h2 h3 h
    obtain ⟨e1, e2⟩ := round_box hy n a b (by omega) h1 h2 h3 hab
    have hnK : (0 : K) < n := by exact_mod_cast (by omega : 0 < n)
    have hspos : 0 < (b - a) / (n : K) := div_pos (by linarith) hnK
    have hedge : ¬ (best y a (points n a b) = a ∨ best y a (points n a b) = b) := by
      rintro (e | e) <;> rw [e] at e1 e2 <;> linarith
    have he : |best y a (points n a b) - lo| ≤ (b - a) / n := by
      rw [abs_le]
      constructor <;> linarith
    obtain ⟨q1, q2, q3, q4⟩ := next_interval hn hab he
    have go : search p10 y n fuel (best y a (points n a b) - (b - a) / 4) (best y a (points n a b) + (b - a) / 4)
        (some (best y a (points n a b))) = some r → ∃ e, r = some e ∧ lo ≤ e ∧ e < lo + (b - a) / n := by
      intro h
      obtain ⟨e, h3', h4, h5⟩ := ih _ _ _ r q2 (by linarith) (by rw [q1]; exact q4) (by rw [q1]; linarith) h
      refine ⟨e, h3', h4, h5.trans_le ?_⟩
      rw [q1]
      linarith
    rw [search_succ] at h
    simp only [if_neg hedge] at h
    rcases last with _ | l
    · exact go h
    · simp only at h
      split at h
      · exact go h
      · simp only [Option.some.injEq] at h
        exact ⟨_, h.symm, e1, e2⟩

/-- The reference frequency of a detector with a box as response is at its lower end, not in its middle. -/
theorem C115_box_lower_end [FloorRing K] (p10 : K → K) {y : K → K} {lo hi : K} (hy : Box y lo hi) (h1 : -20 < lo)
    (h2 : lo + 1 / 1250 < 20) (h3 : 1 / 1250 ≤ hi - lo) (rounds : ℕ) (r : Option K)
    (h : found p10 y rounds = some r) : ∃ e, r = some e ∧ lo ≤ e ∧ e < lo + 1 / 1250 := by
  have e : ((20 : K) - -20) / ((50000 : ℕ) : K) = 1 / 1250 := by norm_num
  have := search_box p10 hy (n := 50000) (by norm_num) rounds (-20) 20 none r (by norm_num) h1 (by rw [e]; exact h2)
    (by rw [e]; exact h3) h
  rwa [e] at this

end search

/-- A response with one peak: the search ends, and finds its frequency up to a factor of `10^(1/1250)`. -/
theorem C115_reference (y : ℝ → ℝ) (p : ℝ) (hy : Peak y p) (h1 : -20 + 1 / 1250 < p) (h2 : p + 1 / 1250 < 20) :
    ∃ rounds e, (∀ r', rounds ≤ r' → found (fun e => (10 : ℝ) ^ e) y r' = some (some e)) ∧ |e - p| ≤ 1 / 1250 := by
  have e : ((20 : ℝ) - -20) / ((50000 : ℕ) : ℝ) = 1 / 1250 := by norm_num
  have hcont : ContinuousAt (fun e : ℝ => (10 : ℝ) ^ e) p :=
    (Real.continuous_const_rpow (by norm_num)).continuousAt
  rw [Metric.continuousAt_iff] at hcont
  obtain ⟨δ, hδ, hc⟩ := hcont (1 / 200) (by norm_num)
  have hc' : ∀ e, |e - p| ≤ δ / 2 → |(10 : ℝ) ^ e - (10 : ℝ) ^ p| ≤ 1 / 200 := by
    intro e he
    have := hc (x := e) (by rw [Real.dist_eq]; linarith)
    rw [Real.dist_eq] at this
    exact this.le
  obtain ⟨m, hm⟩ : ∃ m : ℕ, (1 / 1250 : ℝ) ≤ δ / 2 * 2 ^ m := by
    obtain ⟨m, hm⟩ := pow_unbounded_of_one_lt ((1 / 1250 : ℝ) / (δ / 2)) (by norm_num : (1 : ℝ) < 2)
    refine ⟨m, ?_⟩
    rw [div_lt_iff₀ (by linarith)] at hm
    linarith
  have hsome := search_ends (fun e => (10 : ℝ) ^ e) hy (n := 50000) (by norm_num) (δ / 2) (by linarith) hc' m (-20) 20 none
    (by norm_num) (by rw [e]; exact h1) (by rw [e]; exact h2) (by rw [e]; exact hm)
  obtain ⟨r, hr⟩ := Option.isSome_iff_exists.1 hsome
  obtain ⟨x, hx, hxp⟩ := search_peak (fun e => (10 : ℝ) ^ e) hy (n := 50000) (by norm_num) (m + 2) (-20) 20 none r
    (by norm_num) (by rw [e]; exact h1) (by rw [e]; exact h2) hr
  subst hx
  refine ⟨m + 2, x, ?_, by rwa [e] at hxp⟩
  have mono : ∀ (fuel : ℕ) (a b : ℝ) (last : Option ℝ) (r : Option ℝ) (k : ℕ),
      search (fun e => (10 : ℝ) ^ e) y 50000 fuel a b last = some r →
      search (fun e => (10 : ℝ) ^ e) y 50000 (fuel + k) a b last = some r := by
    intro fuel
    induction fuel with
    | zero => intro a b last r k h; cases h
    | succ fuel ih =>
      intro a b last r k h
      have ek : fuel + 1 + k = (fuel + k) + 1 := by omega
      rw [ek]
      rw [search_succ] at h ⊢
      split
      · rename_i hc
        rw [if_pos hc] at h
        exact h
      · rename_i hc
        rw [if_neg hc] at h
        rcases last with _ | l
        · exact ih _ _ _ _ k h
        · simp only at h ⊢
          split
          · rename_i hc2
            rw [if_pos hc2] at h
            exact ih _ _ _ _ k h
          · rename_i hc2
            rw [if_neg hc2] at h
            exact h
  intro r' hr'
  obtain ⟨k, rfl⟩ : ∃ k, r' = m + 2 + k := ⟨r' - (m + 2), by omega⟩
  exact mono _ _ _ _ _ k hr

/-- The tolerance of 0.01 means nothing: the search may end after two rounds, here more than ten million away from a peak
near `10^11`. -/
theorem C115_reference_rough : ∃ (y : ℝ → ℝ) (p : ℝ), Peak y p ∧ -20 + 1 / 1250 < p ∧ p + 1 / 1250 < 20 ∧
    found (fun e => (10 : ℝ) ^ e) y 2 = some (some 11) ∧ (10 : ℝ) ^ p - (10 : ℝ) ^ (11 : ℝ) > 10 ^ 7 := by
  refine ⟨fun e => -|e - (11 + 1 / 6000)|, 11 + 1 / 6000, ⟨?_, ?_⟩, by norm_num, by norm_num, ?_, ?_⟩
  · intro a b hab hb
    rw [abs_of_nonpos (by linarith), abs_of_nonpos (by linarith)]
    linarith
  · intro a b ha hab
    rw [abs_of_nonneg (by linarith), abs_of_nonneg (by linarith)]
    linarith
  · have pick : ∀ (a b : ℝ) (j : ℕ), a < b → j ≤ 50000 → a + j * ((b - a) / 50000) = 11 → 1 / 2500 ≤ (b - a) / 50000 →
        best (fun e : ℝ => -|e - (11 + 1 / 6000)|) a (points 50000 a b) = 11 := by
      intro a b j hab hj h11 hs
      obtain ⟨k, hk, he, hmax, -⟩ := chosen (fun e : ℝ => -|e - (11 + 1 / 6000)|) 50000 a b (by norm_num) hab
      have h1 := hmax j hj
      have hcast : ((50000 : ℕ) : ℝ) = 50000 := by norm_num
      rw [hcast, h11] at h1
      have h3 : |(11 : ℝ) - (11 + 1 / 6000)| = 1 / 6000 := by
        rw [abs_of_nonpos (by norm_num)]; norm_num
      rw [h3] at h1
      have h4 : |best (fun e : ℝ => -|e - (11 + 1 / 6000)|) a (points 50000 a b) - (11 + 1 / 6000)| ≤ 1 / 6000 := by
        linarith
      rw [abs_le] at h4
      obtain ⟨h5, h6⟩ := h4
      have hkj : k = j := by
        have d : best (fun e : ℝ => -|e - (11 + 1 / 6000)|) a (points 50000 a b) - 11 = ((k : ℝ) - j) * ((b - a) / 50000) := by
          rw [he, hcast, ← h11]; ring
        have hs0 : (0 : ℝ) < (b - a) / 50000 := by linarith
        have g1 : 0 ≤ ((k : ℝ) - j) * ((b - a) / 50000) := by rw [← d]; linarith
        have g2 : ((k : ℝ) - j) * ((b - a) / 50000) ≤ 1 / 3000 := by rw [← d]; linarith
        have g3 : 0 ≤ (k : ℝ) - j := by
          by_contra hc
          have := mul_neg_of_neg_of_pos (not_le.1 hc) hs0
          linarith
        have g4 : (k : ℝ) - j < 1 := by
          by_contra hc
          have := mul_le_mul_of_nonneg_right (not_lt.1 hc) hs0.le
          linarith
        have g5 : (j : ℝ) ≤ k := by linarith
        have g6 : (k : ℝ) < j + 1 := by linarith
        have g7 : j ≤ k := by exact_mod_cast g5
        have g8 : k < j + 1 := by exact_mod_cast g6
        omega
      rw [he, hcast, hkj, h11]
    have p1 := pick (-20) 20 38750 (by norm_num) (by norm_num) (by norm_num) (by norm_num)
    have p2 := pick 1 21 25000 (by norm_num) (by norm_num) (by norm_num) (by norm_num)
    unfold found
    rw [search_succ]
    simp only [p1]
    rw [if_neg (by norm_num)]
    have ea : (11 : ℝ) - (20 - -20) / 4 = 1 := by norm_num
    have eb : (11 : ℝ) + (20 - -20) / 4 = 21 := by norm_num
    rw [ea, eb, search_succ]
    simp only [p2]
    rw [if_neg (by norm_num), if_neg (by norm_num)]
  · rw [Real.rpow_add (by norm_num)]
    have hlog : (2 : ℝ) ≤ Real.log 10 := by
      rw [Real.le_log_iff_exp_le (by norm_num)]
      have : Real.exp 2 = Real.exp 1 * Real.exp 1 := by rw [← Real.exp_add]; norm_num
      rw [this]
      have := Real.exp_one_lt_d9
      have h0 := Real.exp_pos 1
      nlinarith
    have h1 : (1 : ℝ) + 1 / 3000 ≤ (10 : ℝ) ^ ((1 : ℝ) / 6000) := by
      rw [Real.rpow_def_of_pos (by norm_num)]
      have := Real.add_one_le_exp (Real.log 10 * (1 / 6000))
      linarith
    have h2 : (10 : ℝ) ^ (11 : ℝ) = 10 ^ 11 := by
      rw [← Real.rpow_natCast]; norm_num
    rw [h2]
    nlinarith

/-! ## The plots -/

section plots
variable {K W : Type} [Field K] [LinearOrder K] [IsStrictOrderedRing K]

/-- The least (greatest) of a list. -/
theorem fold_extreme (f : K → K → K) (le : K → K → Prop) (hrefl : ∀ a, le a a) (htrans : ∀ a b c, le a b → le b c → le a c)
    (hf : ∀ a b, (f a b = a ∨ f a b = b) ∧ le (f a b) a ∧ le (f a b) b) (anti : ∀ a b, le a b → le b a → a = b)
    (l : List (Option K)) :
    ∀ (x : Option K) (m : K), some m ∈ x :: l → (∀ r ∈ x :: l, ∃ q, r = some q ∧ le m q) →
      l.foldl (both f) x = some m := by
  induction l with
  | nil =>
    intro x m h _
    simp only [List.mem_singleton] at h
    exact h.symm
  | cons z l ih =>
    intro x m hm hall
    obtain ⟨a, rfl, ha⟩ := hall x (by simp)
    obtain ⟨b, rfl, hb⟩ := hall z (by simp)
    simp only [List.foldl_cons, both]
    obtain ⟨h1, h2, h3⟩ := hf a b
    refine ih _ m ?_ ?_
    · simp only [List.mem_cons, Option.some.injEq] at hm ⊢
      rcases hm with rfl | rfl | hm
      · left
        rcases h1 with h1 | h1
        · exact h1.symm
        · rw [h1]
          rw [h1] at h2
          exact anti _ _ hb h2
      · left
        rcases h1 with h1 | h1
        · rw [h1]
          rw [h1] at h3
          exact anti _ _ ha h3
        · exact h1.symm
      · exact Or.inr hm
    · intro r hr
      rcases List.mem_cons.1 hr with rfl | hr
      · refine ⟨_, rfl, ?_⟩
        rcases h1 with h1 | h1 <;> rw [h1] <;> assumption
      · exact hall r (by simp [hr])

theorem freqMin {given : Option K} {refs : List (Option K)} {f0 : K}
    (h : given = some f0 ∨ given = none ∧ ∃ m, some m ∈ refs ∧ (∀ r ∈ refs, ∃ q, r = some q ∧ m ≤ q) ∧ f0 = 9 / 10 * m) :
    freqLimit given min (9 / 10) refs = .ok (some f0) := by
  rcases h with rfl | ⟨rfl, m, h1, h2, rfl⟩
  · rfl
  · rcases refs with _ | ⟨x, l⟩
    · cases h1
    · have := fold_extreme min (· ≤ ·) le_refl (fun a b c => le_trans)
        (fun a b => ⟨min_choice a b, min_le_left a b, min_le_right a b⟩) (fun a b => le_antisymm) l x m h1 h2
      unfold freqLimit extreme
      simp only [this, Option.map_some]

theorem freqMax {given : Option K} {refs : List (Option K)} {f1 : K}
    (h : given = some f1 ∨ given = none ∧ ∃ m, some m ∈ refs ∧ (∀ r ∈ refs, ∃ q, r = some q ∧ q ≤ m) ∧ f1 = 11 / 10 * m) :
    freqLimit given max (11 / 10) refs = .ok (some f1) := by
  rcases h with rfl | ⟨rfl, m, h1, h2, rfl⟩
  · rfl
  · rcases refs with _ | ⟨x, l⟩
    · cases h1
    · have := fold_extreme max (· ≥ ·) le_refl (fun a b c h1 h2 => le_trans h2 h1)
        (fun a b => ⟨max_choice a b, le_max_left a b, le_max_right a b⟩) (fun a b h1 h2 => le_antisymm h2 h1) l x m h1 h2
      unfold freqLimit extreme
      simp only [this, Option.map_some]

theorem box_of {l : Limits K} {best : Option K} {x0 x1 y0 y1 : K} (h : Region l best x0 x1 y0 y1) :
    box best l = .ok (x0, x1, y0, y1) := by
  obtain ⟨h1, h2, h3, h4⟩ := h
  have key : ∀ (g : Option K) (k x : K), Limit g best k x → g = some x ∨ ∃ r, best = some r ∧ g.getD (k * r) = x := by
    rintro g k x (h | ⟨rfl, r, hr, rfl⟩)
    · exact Or.inl h
    · exact Or.inr ⟨r, hr, rfl⟩
  have key2 : ∀ (g : Option K) (k x r : K), Limit g best k x → best = some r → g.getD (k * r) = x := by
    rintro g k x r (rfl | ⟨rfl, r', hr, rfl⟩) hb
    · rfl
    · rw [hb] at hr
      cases hr
      rfl
  rcases hb : best with _ | r
  · have no : ∀ (g : Option K) (k x : K), Limit g best k x → g = some x := by
      intro g k x h
      rcases key g k x h with h | ⟨r, hr, -⟩
      · exact h
      · rw [hb] at hr; cases hr
    unfold box
    rw [no _ _ _ h1, no _ _ _ h2, no _ _ _ h3, no _ _ _ h4]
  · have e1 := key2 _ _ _ r h1 hb
    have e2 := key2 _ _ _ r h2 hb
    have e3 := key2 _ _ _ r h3 hb
    have e4 := key2 _ _ _ r h4 hb
    unfold box
    rcases l with ⟨a, b, c, d, _, _, _⟩
    simp only at e1 e2 e3 e4 ⊢
    rcases a with _ | a <;> rcases b with _ | b <;> rcases c with _ | c <;> rcases d with _ | d <;>
      simp only [Option.getD_none, Option.getD_some] at e1 e2 e3 e4 ⊢ <;> (subst e1 e2 e3 e4; rfl)

theorem linspace_get (n : ℕ) (a b : K) (i : ℕ) (hi : i < n + 1) : (linspace n a b)[i]? = some (a + i * ((b - a) / n)) := by
  unfold linspace
  rw [List.getElem?_map, List.getElem?_range hi]
  rfl

theorem linspace_length (n : ℕ) (a b : K) : (linspace n a b).length = n + 1 := by
  unfold linspace
  simp

/-- One panel. -/
theorem panel_of (l : Limits K) (f0 f1 x0 x1 y0 y1 : K) (name : String) (d : Det K W) (s : Option K → W)
    (v : K → K → Option K → W) (hs : ∀ fs, d.spectral fs = .ok (fs.map s)) (hv : Beam d v) :
    ∃ pn, panel l (some f0) (some f1) x0 x1 y0 y1 name d = .ok pn ∧ pn.name = name ∧
      pn.line = l.fspatial.or d.reffreq ∧
      pn.freqs.length = 1000 ∧ (∀ i : ℕ, i < 1000 → pn.freqs[i]? = some (some (f0 + i * ((f1 - f0) / 999)))) ∧
      pn.spectrum = pn.freqs.map s ∧ pn.beam.centred = true ∧ pn.beam.xs.length = 100 ∧ pn.beam.ys.length = 100 ∧
      (∀ i : ℕ, i < 100 → pn.beam.xs[i]? = some (place x0 x1 i) ∧ pn.beam.ys[i]? = some (place y0 y1 i)) ∧
      ∀ i j : ℕ, i < 100 → j < 100 → pn.beam.val i j = v (place x0 x1 j) (place y0 y1 i) pn.line := by
  obtain ⟨a, ha, hshape, hget⟩ := hv (linspace 99 x0 x1) (linspace 99 y0 y1)
    (l.fspatial.or d.reffreq)
  rw [linspace_length, linspace_length] at hshape
  have hp : Pic.pcolor (linspace 99 x0 x1) (linspace 99 y0 y1) (firstSlice a) =
      .ok ⟨linspace 99 x0 x1, linspace 99 y0 y1, true, fun i j => (firstSlice a).get [j, i]⟩ := by
    unfold Pic.pcolor
    have : (firstSlice a).shape = [100, 100] := by
      unfold firstSlice
      simp only [hshape]
      rfl
    simp only [this, linspace_length]
    rfl
  have c99 : ((99 : ℕ) : K) = 99 := by norm_num
  have c999 : ((999 : ℕ) : K) = 999 := by norm_num
  have hfr : ∀ i : ℕ, i < 1000 → ((linspace 999 f0 f1).map some)[i]? = some (some (f0 + i * ((f1 - f0) / 999))) := by
    intro i hi
    rw [List.getElem?_map, linspace_get _ _ _ _ (by omega), c999]
    rfl
  have hpl : ∀ (a b : K), ∀ i : ℕ, i < 100 → (linspace 99 a b)[i]? = some (place a b i) := by
    intro a b i hi
    rw [linspace_get _ _ _ _ (by omega), c99]
    rfl
  have hN : linspaceN 999 (some f0) (some f1) = (linspace 999 f0 f1).map some := rfl
  have hlen : ((linspace 999 f0 f1).map some).length = 1000 := by rw [List.length_map, linspace_length]
  unfold panel
  simp only [hs, ha, hp, hN]
  refine ⟨_, rfl, ?_⟩
  refine ⟨rfl, rfl, ?_, ?_, ?_, rfl, linspace_length _ _ _, linspace_length _ _ _,
    fun i hi => ⟨hpl _ _ i hi, hpl _ _ i hi⟩, ?_⟩
  · simp only
    exact hlen
  · simp only
    exact hfr
  · simp only
  · intro i j hi hj
    exact hget j i _ _ (hpl _ _ j hj) (hpl _ _ i hi)

/-- One panel for each detector shown, in the order asked for, with the documented ranges and the right spectrum; the
picture of the beam has the two positions exchanged. -/
theorem C115_panels_partial (known : List String) (dets : PyDict String (Det K W)) (best : Option K) (names : List String)
    (l : Limits K) (shown : List String) (hshown : Shown known names shown) (det : String → Det K W)
    (hdet : ∀ n ∈ shown, dets.get? n = some (det n)) (s : String → Option K → W)
    (hs : ∀ n ∈ shown, ∀ fs, (det n).spectral fs = .ok (fs.map (s n))) (v : String → K → K → Option K → W)
    (hv : ∀ n ∈ shown, Beam (det n) (v n)) (f0 f1 x0 x1 y0 y1 : K)
    (hband : Band l (shown.map (fun n => (det n).reffreq)) f0 f1) (hreg : Region l best x0 x1 y0 y1) :
    ∃ ps, plotDetectors known dets best names l = .ok ps ∧ ps.length = shown.length ∧
      ∀ (k : ℕ) (n : String), shown[k]? = some n → ∃ pn, ps[k]? = some pn ∧ pn.name = n ∧
        pn.line = l.fspatial.or (det n).reffreq ∧
        pn.freqs.length = 1000 ∧ (∀ i : ℕ, i < 1000 → pn.freqs[i]? = some (some (f0 + i * ((f1 - f0) / 999)))) ∧
        pn.spectrum = pn.freqs.map (s n) ∧ pn.beam.centred = true ∧ pn.beam.xs.length = 100 ∧ pn.beam.ys.length = 100 ∧
        (∀ i : ℕ, i < 100 → pn.beam.xs[i]? = some (place x0 x1 i) ∧ pn.beam.ys[i]? = some (place y0 y1 i)) ∧
        ∀ i j : ℕ, i < 100 → j < 100 → pn.beam.val i j = v n (place x0 x1 j) (place y0 y1 i) pn.line := by
  have hnames : selected known names = .ok shown := by
    rcases hshown with ⟨rfl, rfl⟩ | ⟨h0, h1, h2, rfl⟩
    · rfl
    · unfold selected
      rw [if_neg (by simpa using h0)]
      unfold checkNames
      rw [if_pos (by simpa using h2), if_pos h1]
  have hmap : mapE (lookup dets) shown = .ok (shown.map (fun n => (n, det n))) := by
    clear hshown hnames hs hv hband
    induction shown with
    | nil => rfl
    | cons n t ih =>
      have := ih (fun m hm => hdet m (by simp [hm]))
      simp only [mapE, lookup, hdet n (by simp), this, List.map_cons]
  have hrefs : (shown.map (fun n => (n, det n))).map (fun q => q.2.reffreq) = shown.map (fun n => (det n).reffreq) := by
    rw [List.map_map]
    rfl
  have htot : ∀ q ∈ shown.map (fun n => (n, det n)),
      ∃ pn, panel l (some f0) (some f1) x0 x1 y0 y1 q.1 q.2 = .ok pn := by
    intro q hq
    obtain ⟨n, hn, rfl⟩ := List.mem_map.1 hq
    obtain ⟨pn, h, -⟩ := panel_of l f0 f1 x0 x1 y0 y1 n (det n) (s n) (v n) (hs n hn) (hv n hn)
    exact ⟨pn, h⟩
  obtain ⟨ps, hps⟩ := mapE_total _ _ htot
  refine ⟨ps, ?_, ?_, ?_⟩
  · unfold plotDetectors
    simp only [hnames, hmap, hrefs, freqMin hband.1, freqMax hband.2, box_of hreg, hps]
  · rw [mapE_length hps, List.length_map]
  · intro k n hk
    have hk2 : (shown.map (fun n => (n, det n)))[k]? = some (n, det n) := by
      rw [List.getElem?_map, hk]
      rfl
    have hkl : k < ps.length := by
      rw [mapE_length hps, List.length_map]
      exact (List.getElem?_eq_some_iff.1 hk).1
    obtain ⟨pn, h1⟩ : ∃ pn, ps[k]? = some pn := ⟨_, List.getElem?_eq_getElem hkl⟩
    obtain ⟨q, hq, h2⟩ := mapE_get hps k pn h1
    rw [hk2] at hq
    cases hq
    have hn := List.mem_of_getElem? hk
    obtain ⟨pn', h3, h4⟩ := panel_of l f0 f1 x0 x1 y0 y1 n (det n) (s n) (v n) (hs n hn) (hv n hn)
    have : pn' = pn := by
      have := h3.symm.trans h2
      cases this
      rfl
    subst this
    exact ⟨pn', h1, h4⟩

/-- The picture of a beam is right for a symmetric beam shown in a square region. -/
theorem C115_beam_partial (known : List String) (dets : PyDict String (Det K W)) (best : Option K) (names : List String)
    (l : Limits K) (shown : List String) (hshown : Shown known names shown) (det : String → Det K W)
    (hdet : ∀ n ∈ shown, dets.get? n = some (det n)) (s : String → Option K → W)
    (hs : ∀ n ∈ shown, ∀ fs, (det n).spectral fs = .ok (fs.map (s n))) (v : String → K → K → Option K → W)
    (hv : ∀ n ∈ shown, Beam (det n) (v n)) (hsym : ∀ n ∈ shown, ∀ x y f, v n x y f = v n y x f) (f0 f1 x0 x1 : K)
    (hband : Band l (shown.map (fun n => (det n).reffreq)) f0 f1) (hreg : Region l best x0 x1 x0 x1) :
    ∃ ps, plotDetectors known dets best names l = .ok ps ∧ ∀ (k : ℕ) (n : String), shown[k]? = some n →
      ∃ pn, ps[k]? = some pn ∧ ∀ i j : ℕ, i < 100 → j < 100 → ∀ (x y : K), pn.beam.xs[i]? = some x → pn.beam.ys[j]? = some y →
        pn.beam.val i j = v n x y pn.line := by
  obtain ⟨ps, h1, -, h2⟩ := C115_panels_partial known dets best names l shown hshown det hdet s hs v hv f0 f1 x0 x1 x0 x1
    hband hreg
  refine ⟨ps, h1, fun k n hk => ?_⟩
  obtain ⟨pn, h3, -, -, -, -, -, -, -, -, h4, h5⟩ := h2 k n hk
  refine ⟨pn, h3, fun i j hi hj x y hx hy => ?_⟩
  rw [(h4 i hi).1] at hx
  rw [(h4 j hj).2] at hy
  cases hx
  cases hy
  rw [h5 i j hi hj]
  exact hsym n (List.mem_of_getElem? hk) _ _ _

/-- What is refused: an unknown name, a name given twice, no region and no resolution, no detectors and no band. -/
theorem C115_refused (known : List String) (dets : PyDict String (Det K W)) (best : Option K) (names : List String)
    (l : Limits K) :
    ((∃ n ∈ names, n ∉ known) → plotDetectors known dets best names l = .error .value) ∧
    (¬ names.Nodup → plotDetectors known dets best names l = .error .value) ∧
    ((∀ n ∈ known, (dets.get? n).isSome) → best = none → (l.xmin = none ∨ l.xmax = none ∨ l.ymin = none ∨ l.ymax = none) →
      plotDetectors known dets best names l = .error .value) ∧
    (known = [] → names = [] → l.fmin = none ∨ l.fmax = none → plotDetectors known dets best names l = .error .value) := by
  refine ⟨?_, ?_, ?_, ?_⟩
  · rintro ⟨n, hn, hk⟩
    have : names.length ≠ 0 := fun h => by
      rw [List.length_eq_zero_iff] at h
      rw [h] at hn
      cases hn
    unfold plotDetectors selected checkNames
    rw [if_neg this, if_neg (by simp only [List.all_eq_true, decide_eq_true_eq]; exact fun h => hk (h n hn))]
  · intro hnd
    have : names.length ≠ 0 := fun h => by
      rw [List.length_eq_zero_iff] at h
      rw [h] at hnd
      exact hnd List.nodup_nil
    unfold plotDetectors selected checkNames
    rw [if_neg this]
    by_cases hall : (names.all (fun n => decide (n ∈ known))) = true
    · rw [if_pos hall, if_neg hnd]
    · rw [if_neg hall]
  · intro hdets hb hl
    have hbox : box best l = .error .value := by
      unfold box
      rcases l with ⟨a, b, c, d, _, _, _⟩
      simp only at hl ⊢
      subst hb
      rcases a with _ | a <;> rcases b with _ | b <;> rcases c with _ | c <;> rcases d with _ | d <;>
        first | rfl | (exfalso; rcases hl with h | h | h | h <;> cases h)
    have hfl : ∀ (g : Option K) f k r, ∀ e, freqLimit g f k r = .error e → e = .value := by
      intro g f k r e h
      unfold freqLimit at h
      rcases g with _ | g
      · simp only at h
        unfold extreme at h
        rcases r with _ | ⟨x, r⟩
        · simp only at h
          cases h
          rfl
        · simp only at h
          cases h
      · cases h
    have hme : ∀ (ns : List String) e, mapE (lookup dets) ns = .error e → e = .value := by
      intro ns
      induction ns with
      | nil => intro e h; cases h
      | cons n t ih =>
        intro e h
        simp only [mapE, lookup] at h
        rcases hg : dets.get? n with _ | d
        · rw [hg] at h
          simp only at h
          cases h
          rfl
        · rw [hg] at h
          simp only at h
          split at h
          · rename_i e' he'
            cases h
            exact ih _ he'
          · cases h
    unfold plotDetectors
    have hsel : ∀ e, selected known names = .error e → e = .value := by
      intro e h
      unfold selected at h
      by_cases h0 : names.length = 0
      · rw [if_pos h0] at h
        cases h
      · rw [if_neg h0] at h
        unfold checkNames at h
        by_cases h1 : (names.all (fun n => decide (n ∈ known))) = true
        · rw [if_pos h1] at h
          by_cases h2 : names.Nodup
          · rw [if_pos h2] at h; cases h
          · rw [if_neg h2] at h; cases h; rfl
        · rw [if_neg h1] at h; cases h; rfl
    split
    · rename_i e he
      rw [hsel e he]
    · rename_i ns hns
      rcases hm : (mapE (lookup dets) ns) with e | ds
      · have := hme ns e hm; subst this; simp only [hm]
      · simp only
        rcases h1 : freqLimit l.fmin min (9 / 10) (ds.map (fun q => q.2.reffreq)) with e | f0
        · have := hfl _ _ _ _ e h1; subst this; simp only [h1]
        · rcases h2 : freqLimit l.fmax max (11 / 10) (ds.map (fun q => q.2.reffreq)) with e | f1
          · have := hfl _ _ _ _ e h2; subst this; simp only [h1, h2]
          · simp only [h1, h2, hbox]
  · rintro rfl rfl hf
    unfold plotDetectors
    simp only [selected, List.length_nil, if_true, mapE, List.map_nil]
    rcases l with ⟨_, _, _, _, f0, f1, _⟩
    simp only at hf ⊢
    rcases f0 with _ | f0
    · rfl
    · rcases f1 with _ | f1
      · rfl
      · rcases hf with h | h <;> cases h

/-- `plot_spectral_response` cannot be used. -/
theorem C115_spectra_fail (fmin fmax : Option K) : ∃ e, plotSpectra fmin fmax = .error e := by
  rcases fmin with _ | f0
  · exact ⟨_, rfl⟩
  · rcases fmax with _ | f1
    · exact ⟨_, rfl⟩
    · refine ⟨.attribute, ?_⟩
      unfold plotSpectra attributes
      simp

end plots

/-- The whole property: the reference frequency is that of the maximum, up to the tolerance of 0.01 in the code (the middle
of a box), beams are shown as they are, and the spectra can be plotted. -/
def C115_full : Prop :=
  (∀ (y : ℝ → ℝ) (p : ℝ), Peak y p → -20 + 1 / 1250 < p → p + 1 / 1250 < 20 → ∀ (rounds : ℕ) (e : ℝ),
    found (fun e => (10 : ℝ) ^ e) y rounds = some (some e) → |(10 : ℝ) ^ e - (10 : ℝ) ^ p| ≤ 1 / 100) ∧
  (∀ (y : ℝ → ℝ) (lo hi : ℝ), Box y lo hi → -20 < lo → hi < 20 → lo < hi → ∃ (rounds : ℕ) (e : ℝ),
    found (fun e => (10 : ℝ) ^ e) y rounds = some (some e) ∧ |2 * (10 : ℝ) ^ e - ((10 : ℝ) ^ lo + (10 : ℝ) ^ hi)| ≤ 1 / 50) ∧
  (∀ (name : String) (d : Det ℚ ℚ) (v : ℚ → ℚ → Option ℚ → ℚ) (l : Limits ℚ) (f0 f1 x0 x1 y0 y1 : ℚ),
    (∀ fs, ∃ sp, d.spectral fs = .ok sp) → Beam d v → Band l [d.reffreq] f0 f1 → Region l none x0 x1 y0 y1 →
    ∃ pn, plotDetectors [name] [(name, d)] none [] l = .ok [pn] ∧ ∀ i j : ℕ, i < 100 → j < 100 →
      pn.beam.val i j = v (place x0 x1 i) (place y0 y1 j) pn.line) ∧
  (∀ fmin fmax : Option ℚ, plotSpectra fmin fmax = .ok ())

/-- A detector whose beam is the first position. -/
def tilted : Det ℚ ℚ where
  reffreq := some 100
  spectral := fun fs => .ok (fs.map (fun _ => 1))
  spatial := fun x y _ => .ok ⟨[x.length, y.length, 1], fun i => x.getD (i.headD 0) 0⟩

theorem tilted_beam : Beam tilted (fun x _ _ => x) := by
  intro x y f
  refine ⟨_, rfl, rfl, fun i j p q hp _ => ?_⟩
  show x.getD i 0 = p
  rw [List.getD_eq_getElem?_getD, hp]
  rfl

/-- The limits of the example. -/
def square : Limits ℚ := { xmin := some 0, xmax := some 99, ymin := some 0, ymax := some 99 }

theorem square_region : Region square none 0 99 0 99 :=
  ⟨Or.inl rfl, Or.inl rfl, Or.inl rfl, Or.inl rfl⟩

theorem square_band : Band square [some 100] 90 110 :=
  ⟨Or.inr ⟨rfl, 100, by simp, fun r hr => ⟨100, by simpa using hr, le_refl _⟩, by norm_num⟩,
    Or.inr ⟨rfl, 100, by simp, fun r hr => ⟨100, by simpa using hr, le_refl _⟩, by norm_num⟩⟩

/-- Beams are shown with the positions exchanged, also in a square region. -/
theorem C115_beam_exchanged : ∃ pn, plotDetectors ["A"] [("A", tilted)] none [] square = .ok [pn] ∧
    ∀ i j : ℕ, i < 100 → j < 100 → pn.beam.val i j = j := by
  obtain ⟨ps, h1, h2, h3⟩ := C115_panels_partial ["A"] [("A", tilted)] none [] square ["A"] (Or.inl ⟨rfl, rfl⟩)
    (fun _ => tilted) (fun n hn => by simp only [List.mem_singleton] at hn; subst hn; rfl) (fun _ _ => 1) (fun _ _ _ => rfl)
    (fun _ x _ _ => x) (fun _ _ => tilted_beam) 90 110 0 99 0 99 square_band square_region
  match ps, h2 with
  | [pn], _ =>
    refine ⟨pn, h1, fun i j hi hj => ?_⟩
    obtain ⟨pn', e, -, -, -, -, -, -, -, -, -, h⟩ := h3 0 "A" rfl
    simp only [List.getElem?_cons_zero, Option.some.injEq] at e
    subst e
    rw [h i j hi hj]
    unfold place
    norm_num

/-- The example meets the hypotheses of the theorem on symmetric beams: a beam that is the same everywhere. -/
example : ∃ ps, plotDetectors ["A", "B"] [("B", { tilted with spatial := fun x y _ => .ok ⟨[x.length, y.length, 1], fun _ => (7 : ℚ)⟩ }),
      ("A", tilted)] (some 2) ["B"] {} = .ok ps ∧ ∀ (k : ℕ) (n : String), ["B"][k]? = some n →
      ∃ pn, ps[k]? = some pn ∧ ∀ i j : ℕ, i < 100 → j < 100 → ∀ (x y : ℚ), pn.beam.xs[i]? = some x → pn.beam.ys[j]? = some y →
        pn.beam.val i j = 7 :=
  C115_beam_partial ["A", "B"] _ (some 2) ["B"] {} ["B"] (Or.inr ⟨by simp, by simp, by simp, rfl⟩)
    (fun _ => { tilted with spatial := fun x y _ => .ok ⟨[x.length, y.length, 1], fun _ => 7⟩ })
    (fun n hn => by simp only [List.mem_singleton] at hn; subst hn; rfl) (fun _ _ => 1) (fun _ _ _ => rfl)
    (fun _ _ _ _ => 7) (fun _ _ x y f => ⟨_, rfl, rfl, fun _ _ _ _ _ _ => rfl⟩) (fun _ _ _ _ _ => rfl) 90 110 (-10) 10
    ⟨Or.inr ⟨rfl, 100, by simp [tilted], fun r hr => ⟨100, by simpa [tilted] using hr, le_refl _⟩, by norm_num⟩,
      Or.inr ⟨rfl, 100, by simp [tilted], fun r hr => ⟨100, by simpa [tilted] using hr, le_refl _⟩, by norm_num⟩⟩
    ⟨Or.inr ⟨rfl, 2, rfl, by norm_num⟩, Or.inr ⟨rfl, 2, rfl, by norm_num⟩, Or.inr ⟨rfl, 2, rfl, by norm_num⟩,
      Or.inr ⟨rfl, 2, rfl, by norm_num⟩⟩

/-- A box meets the hypotheses of the theorem on boxes. -/
example : Box (fun e : ℚ => if 2 ≤ e ∧ e ≤ 3 then 1 else 0) 2 3 :=
  ⟨⟨1, by norm_num, fun e h1 h2 => if_pos ⟨h1, h2⟩⟩, fun e h => if_neg (fun h' => absurd h (not_lt.2 h'.1)),
    fun e h => if_neg (fun h' => absurd h (not_lt.2 h'.2))⟩

/-- A box narrower than the distance between two points may be missed: it lies between two points of the first round. -/
theorem C115_narrow_box : ∃ y : ℝ → ℝ, Box y (11 + 1 / 5000) (11 + 1 / 2500) ∧
    ∀ rounds, found (fun e => (10 : ℝ) ^ e) y (rounds + 1) = some none := by
  refine ⟨fun e => if 11 + 1 / 5000 ≤ e ∧ e ≤ 11 + 1 / 2500 then 1 else 0,
    ⟨⟨1, by norm_num, fun e h1 h2 => if_pos ⟨h1, h2⟩⟩, fun e h => if_neg (fun h' => absurd h (not_lt.2 h'.1)),
    fun e h => if_neg (fun h' => absurd h (not_lt.2 h'.2))⟩, fun rounds => C115_narrow_unseen _ _ rounds ?_⟩
  intro e he
  unfold points at he
  obtain ⟨k, -, rfl⟩ := List.mem_map.1 he
  rw [if_neg, if_neg]
  · norm_num
  · rintro ⟨h1, h2⟩
    have e1 : ((20 : ℝ) - -20) / ((50000 : ℕ) : ℝ) = 1 / 1250 := by norm_num
    rw [e1] at h1 h2
    have g1 : (38750 : ℝ) < k := by linarith
    have g2 : (k : ℝ) < 38751 := by linarith
    have g3 : 38750 < k := by exact_mod_cast g1
    have g4 : k < 38751 := by exact_mod_cast g2
    omega

theorem C115_full_false : ¬ C115_full := by
  rintro ⟨-, -, h, -⟩
  obtain ⟨pn, h1, h2⟩ := h "A" tilted (fun x _ _ => x) square 90 110 0 99 0 99 (fun fs => ⟨_, rfl⟩) tilted_beam square_band
    square_region
  obtain ⟨pn', h3, h4⟩ := C115_beam_exchanged
  rw [h1] at h3
  cases h3
  have a := h2 1 0 (by norm_num) (by norm_num)
  rw [h4 1 0 (by norm_num) (by norm_num)] at a
  unfold place at a
  norm_num at a

end Verif.InstPlot
