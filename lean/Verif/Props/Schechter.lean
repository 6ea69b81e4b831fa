import Verif.Lemmas.Schechter
import Verif.Props.LumFun

/-!
# Properties of the Schechter functions
-/

set_option linter.unusedSectionVars false

namespace Verif.LF

open Set MeasureTheory Spec

/-- `_uppergammamod` for one value is the integral of `t^(a-1) e^-t` from `x` to infinity for every `a`,
positive or not: the recursion continues the incomplete gamma function. -/
theorem C92_gamma (sp : Special) (hs : Lawful sp) (a x : ℝ) (hx : 0 < x) :
    upperMod sp a x = tail (fun t => t ^ (a - 1) * Real.exp (-t)) x :=
  upperMod_eq sp hs a x hx

theorem Inhabited.x0 {d : Schechter} (h : Inhabited d) : 0 < d.x0 := by
  have := h.1
  unfold Schechter.accepted at this
  simp at this
  exact this.1.1

theorem Inhabited.xmin {d : Schechter} (h : Inhabited d) : 0 < d.xmin := by
  have := h.1
  unfold Schechter.accepted at this
  simp at this
  exact this.1.2

theorem Inhabited.nonneg {d : Schechter} (h : Inhabited d) : ∀ p ∈ d.parts, 0 ≤ p.2 := by
  have := h.1
  unfold Schechter.accepted at this
  simp at this
  intro p hp
  exact this.2 p.1 p.2 hp

theorem Inhabited.pos {d : Schechter} (h : Inhabited d) (x : ℝ) (hx : 0 < x) :
    ∀ t, x < t → 0 < schechter d.x0 d.parts t := by
  intro t ht
  exact schechter_pos d.x0 (Inhabited.x0 h) d.parts (Inhabited.nonneg h) h.2 t (lt_trans hx ht)

theorem Inhabited.integrable {d : Schechter} (h : Inhabited d) (x : ℝ) (hx : 0 < x) :
    IntegrableOn (schechter d.x0 d.parts) (Ioi x) :=
  schechter_integrable d.x0 (Inhabited.x0 h) d.parts x hx

/-! ## Numbers of objects -/

/-- `lum_function_int` is the integral of the luminosity function above `x`, for every slope, if `x` is not
below `xmin`. -/
theorem C92_count_partial (sp : Special) (hs : Lawful sp) (d : Schechter) (h : Inhabited d) (x : ℝ)
    (hx : d.xmin ≤ x) :
    d.countNumber sp x = tail (schechter d.x0 d.parts) x ∧
      d.countElem sp x = tail (schechter d.x0 d.parts) x := by
  have hp : 0 < x := lt_of_lt_of_le (Inhabited.xmin h) hx
  unfold Schechter.countNumber Schechter.countElem
  rw [if_neg (not_lt.2 hx), if_neg (not_lt.2 hx), above_eq sp hs d (Inhabited.x0 h) x hp]
  exact ⟨rfl, rfl⟩

/-- Below `xmin`, an array gives the number of all objects, but a number gives one. -/
theorem C92_count_below (sp : Special) (hs : Lawful sp) (d : Schechter) (h : Inhabited d) (x : ℝ)
    (hx : x < d.xmin) :
    d.countElem sp x = tail (schechter d.x0 d.parts) d.xmin ∧ d.countNumber sp x = 1 := by
  unfold Schechter.countNumber Schechter.countElem
  rw [if_pos hx, if_pos hx, above_eq sp hs d (Inhabited.x0 h) _ (Inhabited.xmin h)]
  exact ⟨rfl, rfl⟩

/-- `lum_function` is the Schechter function above `xmin` and zero below. -/
theorem C92_lum (d : Schechter) (h : Inhabited d) (x : ℝ) :
    d.lum x = if x < d.xmin then 0 else schechter d.x0 d.parts x := by
  by_cases hx : x < d.xmin
  · rw [if_pos hx]; unfold Schechter.lum; rw [if_pos hx]
  · rw [if_neg hx, lum_eq d (Inhabited.x0 h) x (not_lt.1 hx)]

/-! ## The cumulative distribution -/

theorem total_pos (d : Schechter) (h : Inhabited d) : 0 < tail (schechter d.x0 d.parts) d.xmin :=
  tail_pos _ _ (Inhabited.integrable h _ (Inhabited.xmin h)) (Inhabited.pos h _ (Inhabited.xmin h))

theorem cdfElem_eq (sp : Special) (hs : Lawful sp) (d : Schechter) (h : Inhabited d) (x : ℝ)
    (hx : d.xmin < x) :
    d.cdfElem sp x = some (partBelow (schechter d.x0 d.parts) d.xmin x) := by
  have h1 := (C92_count_partial sp hs d h d.xmin (le_refl _)).2
  have h2 := (C92_count_partial sp hs d h x hx.le).2
  unfold Schechter.cdfElem
  rw [if_neg (not_lt.2 hx.le), h1, h2, if_neg (total_pos d h).ne']
  congr 1
  unfold partBelow
  rw [if_neg (not_le.2 hx)]
  congr 1
  rw [tail_split _ _ _ hx.le (Inhabited.integrable h _ (Inhabited.xmin h))]
  ring

theorem cdf_pick (sp : Special) (hs : Lawful sp) (d : Schechter) (h : Inhabited d) (x : ℝ) :
    (if d.xmin < x then d.cdfElem sp x else some 0) =
      some (partBelow (schechter d.x0 d.parts) d.xmin x) := by
  by_cases hx : d.xmin < x
  · rw [if_pos hx, cdfElem_eq sp hs d h x hx]
  · rw [if_neg hx]
    unfold partBelow
    rw [if_pos (not_lt.1 hx)]

/-- A single value gets the part of the objects below it. -/
theorem C92_single (sp : Special) (hs : Lawful sp) (d : Schechter) (h : Inhabited d) (x : ℝ) :
    d.cdf sp [x] = .ok [some (partBelow (schechter d.x0 d.parts) d.xmin x)] := by
  unfold Schechter.cdf
  rw [if_neg (by simp [h.1]), if_neg (by simp)]
  simp only [List.map_cons, List.map_nil]
  rw [cdf_pick sp hs d h x]

theorem alone_eq (sp : Special) (hs : Lawful sp) (d : Schechter) (h : Inhabited d) (x : ℝ) :
    alone (d.cdf sp) x = some (partBelow (schechter d.x0 d.parts) d.xmin x) := by
  unfold alone
  rw [C92_single sp hs d h x]

/-- An array with a value outside the support is treated element by element. -/
theorem C92_arrays_partial (sp : Special) (hs : Lawful sp) (d : Schechter) (h : Inhabited d)
    (xs : List ℝ) (hx : ∃ x ∈ xs, x ≤ d.xmin) : Elementwise (d.cdf sp) xs := by
  unfold Elementwise Schechter.cdf
  rw [if_neg (by simp [h.1]), if_neg]
  · congr 1
    apply List.map_congr_left
    intro x _
    rw [cdf_pick sp hs d h x]
    exact (alone_eq sp hs d h x).symm
  · rintro ⟨ha, _⟩
    obtain ⟨x, hm, hle⟩ := hx
    have := List.all_eq_true.1 ha x hm
    simp at this
    linarith

theorem arrayLoop_err (as xs : List ℝ) (is : List ℕ) (gps : List ℝ) (e : Err)
    (h : arrayLoop as xs is gps = .error e) : e = .valueError := by
  induction is generalizing gps with
  | nil => cases h
  | cons i rest ih =>
    unfold arrayLoop at h
    rcases hs : arrayStep i as xs gps with e' | gps'
    · rw [hs] at h
      simp only [Except.error.injEq] at h
      unfold arrayStep at hs
      split at hs
      · cases hs
      · simp only [Except.error.injEq] at hs
        rw [← h, ← hs]
    · rw [hs] at h
      exact ih gps' h

theorem arrayTerms_err (sp : Special) (n : ℕ) (x0 : ℝ) (xs : List ℝ) (ps : List (ℝ × ℝ)) (e : Err)
    (h : arrayTerms sp n x0 xs ps = .error e) : e = .valueError := by
  induction ps generalizing e with
  | nil => cases h
  | cons p ps ih =>
    unfold arrayTerms at h
    rcases ht : arrayTerm sp n x0 p xs with e' | us
    · rw [ht] at h
      simp only [Except.error.injEq] at h
      subst h
      unfold arrayTerm at ht
      rcases hu : upperArray sp (List.replicate n (p.1 + 1)) (xs.map (fun x => x / x0)) with e'' | us
      · rw [hu] at ht
        simp only [Except.error.injEq] at ht
        subst ht
        exact arrayLoop_err _ _ _ _ _ hu
      · rw [hu] at ht; cases ht
    · rw [ht] at h
      simp only at h
      rcases hr : arrayTerms sp n x0 xs ps with e' | vs
      · rw [hr] at h
        simp only [Except.error.injEq] at h
        subst h
        exact ih e' hr
      · rw [hr] at h; cases h

theorem norm_fails (sp : Special) (d : Schechter) (n : ℕ) (hn : 0 < n) :
    d.countArray sp (List.replicate n d.xmin) = .error .valueError := by
  unfold Schechter.countArray
  rcases h1 : arrayTerms sp (List.replicate n d.xmin).length d.x0 (List.replicate n d.xmin) d.parts with e | us
  · simp only
    rw [arrayTerms_err _ _ _ _ _ _ h1]
  · simp only
    rw [List.length_replicate] at h1 ⊢
    rw [h1]
    simp only
    rw [if_neg]
    simp
    omega

/-- **Arrays fail.** The cumulative distribution of two or more values that are all inside the support
raises an exception, for every slope and amplitude. -/
theorem C92_arrays_fail (sp : Special) (d : Schechter) (ha : d.accepted = true) (xs : List ℝ)
    (hn : 1 < xs.length) (hx : ∀ x ∈ xs, d.xmin < x) :
    d.cdf sp xs = .error .valueError ∧ d.pdf sp xs = .error .valueError := by
  have hall : xs.all (fun x => decide (d.xmin < x)) = true := by
    rw [List.all_eq_true]; intro x hm; simpa using hx x hm
  have hall' : xs.all (fun x => decide (d.xmin ≤ x)) = true := by
    rw [List.all_eq_true]; intro x hm; simpa using (hx x hm).le
  constructor
  · unfold Schechter.cdf
    rw [if_neg (by simp [ha]), if_pos ⟨hall, hn⟩]
    unfold Schechter.cdfArray
    rw [norm_fails sp d xs.length (by omega)]
  · unfold Schechter.pdf
    rw [if_neg (by simp [ha]), if_pos ⟨hall', hn⟩, norm_fails sp d xs.length (by omega)]

theorem partBelow_fraction (d : Schechter) (h : Inhabited d) (x : ℝ) :
    0 ≤ partBelow (schechter d.x0 d.parts) d.xmin x ∧ partBelow (schechter d.x0 d.parts) d.xmin x ≤ 1 := by
  unfold partBelow
  by_cases hx : x ≤ d.xmin
  · rw [if_pos hx]; exact ⟨le_refl _, zero_le_one⟩
  · rw [if_neg hx]
    have hi := Inhabited.integrable h _ (Inhabited.xmin h)
    have hp := Inhabited.pos h _ (Inhabited.xmin h)
    have hT := total_pos d h
    have h1 := interval_pos _ _ _ (not_le.1 hx) hi hp
    have h2 := tail_split _ _ _ (not_le.1 hx).le hi
    have h3 : 0 < tail (schechter d.x0 d.parts) x :=
      tail_pos _ _ (Inhabited.integrable h _ (lt_trans (Inhabited.xmin h) (not_le.1 hx)))
        (Inhabited.pos h _ (lt_trans (Inhabited.xmin h) (not_le.1 hx)))
    constructor
    · exact div_nonneg h1.le hT.le
    · rw [div_le_one hT]; linarith

theorem partBelow_eq (d : Schechter) (h : Inhabited d) (x : ℝ) (hx : d.xmin ≤ x) :
    partBelow (schechter d.x0 d.parts) d.xmin x =
      1 - tail (schechter d.x0 d.parts) x / tail (schechter d.x0 d.parts) d.xmin := by
  have hi := Inhabited.integrable h _ (Inhabited.xmin h)
  have hT := (total_pos d h).ne'
  unfold partBelow
  rcases eq_or_lt_of_le hx with hx | hx
  · subst hx
    rw [if_pos (le_refl _), div_self hT, sub_self]
  · rw [if_neg (not_le.2 hx), eq_sub_iff_add_eq, ← add_div,
      ← tail_split _ _ _ hx.le hi, div_self hT]

theorem partBelow_lt (d : Schechter) (h : Inhabited d) (x y : ℝ) (hx : d.xmin ≤ x) (hxy : x < y) :
    partBelow (schechter d.x0 d.parts) d.xmin x < partBelow (schechter d.x0 d.parts) d.xmin y := by
  rw [partBelow_eq d h x hx, partBelow_eq d h y (le_trans hx hxy.le)]
  have hpos := lt_of_lt_of_le (Inhabited.xmin h) hx
  have := tail_lt _ x y hxy (Inhabited.integrable h _ hpos) (Inhabited.pos h _ hpos)
  have := div_lt_div_of_pos_right this (total_pos d h)
  linarith

/-- The cumulative distribution of single values is one. -/
theorem C92_cumulative (sp : Special) (hs : Lawful sp) (d : Schechter) (h : Inhabited d) :
    Cumulative (alone (d.cdf sp)) d.xmin where
  fraction := fun x => ⟨_, alone_eq sp hs d h x, partBelow_fraction d h x⟩
  increasing := by
    intro x y c e hxy hc he
    rw [alone_eq sp hs d h] at hc he
    simp only [Option.some.injEq] at hc he
    rw [← hc, ← he]
    rcases le_or_gt x d.xmin with hx | hx
    · have : partBelow (schechter d.x0 d.parts) d.xmin x = 0 := by unfold partBelow; rw [if_pos hx]
      rw [this]; exact (partBelow_fraction d h y).1
    · rcases eq_or_lt_of_le hxy with e | e
      · rw [e]
      · exact (partBelow_lt d h x y hx.le e).le
  below := by
    intro x hx
    rw [alone_eq sp hs d h]
    unfold partBelow
    rw [if_pos hx]

/-! ## Quantiles -/

theorem logNodes_eq (xmin : ℝ) : logNodes xmin = nodes (Gal.realFn (fun _ => 0)) xmin := by
  unfold logNodes nodes
  rfl

/-- The values at which the table of the quantiles is made. -/
noncomputable abbrev point (xmin : ℝ) (i : ℕ) : ℝ := node (Gal.realFn (fun _ => 0)) xmin i

theorem quantiles_get (sp : Special) (hs : Lawful sp) (d : Schechter) (h : Inhabited d) (i : ℕ)
    (hi : i < 10001) :
    (d.quantiles sp)[i]? =
      some (partBelow (schechter d.x0 d.parts) d.xmin (point d.xmin i), point d.xmin i) := by
  unfold Schechter.quantiles
  rw [List.getElem?_map, logNodes_eq, nodes_get _ _ i hi, Option.map_some]
  have hle : d.xmin ≤ point d.xmin i := by
    have := node_le _ realFn_logs d.xmin (Nat.zero_le i)
    rw [node_zero _ realFn_logs d.xmin (Inhabited.xmin h)] at this
    exact this
  rw [(C92_count_partial sp hs d h _ hle).2, (C92_count_partial sp hs d h d.xmin (le_refl _)).1,
    partBelow_eq d h _ hle]

theorem quantiles_length (sp : Special) (d : Schechter) : (d.quantiles sp).length = 10001 := by
  unfold Schechter.quantiles
  rw [List.length_map, logNodes_eq, nodes_length]

theorem point_ge (d : Schechter) (h : Inhabited d) (i : ℕ) : d.xmin ≤ point d.xmin i := by
  have := node_le _ realFn_logs d.xmin (Nat.zero_le i)
  rw [node_zero _ realFn_logs d.xmin (Inhabited.xmin h)] at this
  exact this

theorem quantiles_pairs (sp : Special) (hs : Lawful sp) (d : Schechter) (h : Inhabited d) :
    (d.quantiles sp).Pairwise (fun a b => a.1 < b.1 ∧ a.2 < b.2) := by
  rw [List.pairwise_iff_getElem]
  intro i j hi hj hij
  have e1 := List.getElem?_eq_getElem hi
  have e2 := List.getElem?_eq_getElem hj
  rw [quantiles_length] at hi hj
  rw [quantiles_get sp hs d h i hi] at e1
  rw [quantiles_get sp hs d h j hj] at e2
  rw [← Option.some.inj e1, ← Option.some.inj e2]
  have := node_lt _ realFn_logs d.xmin hij
  exact ⟨partBelow_lt d h _ _ (point_ge d h i) this, this⟩

theorem quantiles_strict (sp : Special) (hs : Lawful sp) (d : Schechter) (h : Inhabited d) :
    Strict1 (d.quantiles sp) := (quantiles_pairs sp hs d h).imp (fun h => h.1)

theorem quantiles_incr (sp : Special) (hs : Lawful sp) (d : Schechter) (h : Inhabited d) :
    AM.Incr (d.quantiles sp) := (quantiles_pairs sp hs d h).imp (fun h => ⟨h.1.le, h.2.le⟩)

theorem partBelow_lt_one (d : Schechter) (h : Inhabited d) (x : ℝ) :
    partBelow (schechter d.x0 d.parts) d.xmin x < 1 := by
  rcases le_or_gt x d.xmin with hx | hx
  · unfold partBelow; rw [if_pos hx]; exact one_pos
  · have h1 := partBelow_lt d h x (x + 1) hx.le (by linarith)
    exact lt_of_lt_of_le h1 (partBelow_fraction d h (x + 1)).2

theorem partBelow_pos (d : Schechter) (h : Inhabited d) (x : ℝ) (hx : d.xmin < x) :
    0 < partBelow (schechter d.x0 d.parts) d.xmin x := by
  have h1 := partBelow_lt d h d.xmin x (le_refl _) hx
  have : partBelow (schechter d.x0 d.parts) d.xmin d.xmin = 0 := by
    unfold partBelow; rw [if_pos (le_refl _)]
  linarith

theorem schechter_ppf_inside (sp : Special) (d : Schechter) (h : Inhabited d) (x : ℝ) (hx : d.xmin < x) :
    d.ppf sp (partBelow (schechter d.x0 d.parts) d.xmin x) =
      some ((interpD (d.quantiles sp) (partBelow (schechter d.x0 d.parts) d.xmin x) : ℝ) : WithTop ℝ) := by
  have h1 := partBelow_pos d h x hx
  have h2 := partBelow_lt_one d h x
  unfold Schechter.ppf
  rw [if_neg (by simp [h.1, h1.le, h2.le]), if_neg h1.ne', if_neg h2.ne]

/-- The quantile function undoes the cumulative distribution at the values of its table. -/
theorem C92_quantile_table (sp : Special) (hs : Lawful sp) (d : Schechter) (h : Inhabited d) (i : ℕ)
    (h0 : 0 < i) (hi : i < 10001) :
    ∃ c, alone (d.cdf sp) (point d.xmin i) = some c ∧
      d.ppf sp c = some ((point d.xmin i : ℝ) : WithTop ℝ) := by
  refine ⟨_, alone_eq sp hs d h _, ?_⟩
  have hlt := node_lt _ realFn_logs d.xmin h0
  rw [node_zero _ realFn_logs d.xmin (Inhabited.xmin h)] at hlt
  rw [schechter_ppf_inside sp d h _ hlt]
  have := interpD_at _ (quantiles_strict sp hs d h) i _ (quantiles_get sp hs d h i hi)
  simp only at this
  rw [this]

/-- Between two neighbouring values of the table it gives a value between them. -/
theorem C92_quantile_partial (sp : Special) (hs : Lawful sp) (d : Schechter) (h : Inhabited d) (i : ℕ)
    (hi : i + 1 < 10001) (x : ℝ) (hx : d.xmin < x) (h1 : point d.xmin i ≤ x) (h2 : x ≤ point d.xmin (i + 1)) :
    ∃ c y, alone (d.cdf sp) x = some c ∧ d.ppf sp c = some ((y : ℝ) : WithTop ℝ) ∧
      point d.xmin i ≤ y ∧ y ≤ point d.xmin (i + 1) := by
  refine ⟨_, _, alone_eq sp hs d h x, schechter_ppf_inside sp d h x hx, ?_⟩
  have hC := C92_cumulative sp hs d h
  exact interpD_between _ (quantiles_strict sp hs d h) (quantiles_incr sp hs d h) _ i (i + 1) _ _
    (quantiles_get sp hs d h i (by omega)) (quantiles_get sp hs d h (i + 1) hi)
    (hC.increasing _ _ _ _ h1 (alone_eq sp hs d h _) (alone_eq sp hs d h _))
    (hC.increasing _ _ _ _ h2 (alone_eq sp hs d h _) (alone_eq sp hs d h _))

/-- The full property: the number of objects above every number is the integral of the luminosity
function, and the cumulative distribution of every array is that of its elements. -/
def C92_full : Prop :=
  ∀ (sp : Special) (d : Schechter), Lawful sp → Inhabited d →
    (∀ x, d.countNumber sp x = tail d.lum x) ∧ ∀ xs, Elementwise (d.cdf sp) xs

/-- Functions as documented exist. -/
noncomputable def special : Special where
  gamma := Real.Gamma
  gammaincc := fun a x => tail (fun t => t ^ (a - 1) * Real.exp (-t)) x / Real.Gamma a
  expi := fun y => -tail (fun t => t⁻¹ * Real.exp (-t)) (-y)

theorem special_lawful : Lawful special where
  gamma := by
    intro a x ha _
    show Real.Gamma a * (_ / Real.Gamma a) = _
    rw [mul_div_cancel₀ _ (Real.Gamma_pos_of_pos ha).ne']
  expi := by
    intro x _
    show - -tail _ (- -x) = _
    rw [neg_neg, neg_neg]

theorem example_inhabited : Inhabited (single 1 (-3 / 2) 1 1) := by
  refine ⟨?_, (-3 / 2, 1), by simp [single], by norm_num⟩
  simp [Schechter.accepted, single]

theorem C92_full_false : ¬ C92_full := by
  intro h
  have h1 := (h special (single 1 (-3 / 2) 1 1) special_lawful example_inhabited).2 [2, 3]
  have h2 := (C92_arrays_fail special (single 1 (-3 / 2) 1 1) example_inhabited.1 [2, 3] (by simp) (by
    intro x hx
    simp [single] at hx ⊢
    rcases hx with rfl | rfl <;> norm_num)).1
  unfold Elementwise at h1
  rw [h2] at h1
  cases h1

/-- The slope of the example needs the recursion. -/
example : steps ((-3 / 2 : ℝ) + 1) = 1 := by
  have : ⌊(-3 / 2 : ℝ) + 1⌋ = -1 := by
    rw [Int.floor_eq_iff]; norm_num
  unfold steps
  rw [this]; rfl

/-! ## Densities -/

/-- `pdf` of one value is the luminosity function itself. -/
theorem C93_single (sp : Special) (d : Schechter) (h : Inhabited d) (x : ℝ) :
    d.pdf sp [x] = .ok [some (d.lum x)] := by
  unfold Schechter.pdf
  rw [if_neg (by simp [h.1]), if_neg (by simp)]
  rfl

theorem lum_tail (d : Schechter) (h : Inhabited d) :
    tail d.lum d.xmin = tail (schechter d.x0 d.parts) d.xmin := by
  unfold tail
  apply setIntegral_congr_fun measurableSet_Ioi
  intro t ht
  exact lum_eq d (Inhabited.x0 h) t (le_of_lt ht)

/-- **Not normalised.** The integral of `pdf` over the support is the number of objects, not one. -/
theorem C93_total (sp : Special) (d : Schechter) (h : Inhabited d) :
    tail (value (alone (d.pdf sp))) d.xmin = tail (schechter d.x0 d.parts) d.xmin := by
  rw [← lum_tail d h]
  congr 1
  funext x
  unfold value alone
  rw [C93_single sp d h x]
  rfl

/-- The integral of `pdf` over an interval is the number of objects times the difference of the cumulative
distribution. -/
theorem C93_interval_partial (sp : Special) (hs : Lawful sp) (d : Schechter) (h : Inhabited d) (x : ℝ)
    (hx : d.xmin < x) :
    ∃ c, alone (d.cdf sp) x = some c ∧
      ∫ t in Ioc d.xmin x, value (alone (d.pdf sp)) t =
        tail (schechter d.x0 d.parts) d.xmin * c := by
  refine ⟨_, alone_eq sp hs d h x, ?_⟩
  have e : ∫ t in Ioc d.xmin x, value (alone (d.pdf sp)) t =
      ∫ t in Ioc d.xmin x, schechter d.x0 d.parts t := by
    apply setIntegral_congr_fun measurableSet_Ioc
    intro t ht
    show value (alone (d.pdf sp)) t = _
    unfold value alone
    rw [C93_single sp d h t]
    exact lum_eq d (Inhabited.x0 h) t ht.1.le
  rw [e]
  unfold partBelow
  rw [if_neg (not_le.2 hx), mul_div_cancel₀ _ (total_pos d h).ne']

/-- The density of a tabulated distribution is per unit of the logarithm: its sum over the values of the
table times the step is one. -/
theorem C93_table (fn : Gal.Fn ℝ) (hf : Logs fn) (d : Tab ℝ) (ha : d.accepted = true) (hx : 0 < d.xmin)
    (hp : Positive d.shape d.xmin) :
    (∀ i, i < 10001 → d.pdf fn (node fn d.xmin i) =
      some (d.shape (node fn d.xmin i) / (sumBelow fn d.shape d.xmin 10001 / 500))) ∧
    sumBelow fn (value (d.pdf fn)) d.xmin 10001 / 500 = 1 := by
  have hT : 0 < sumBelow fn d.shape d.xmin 10001 := sumBelow_lt fn hf _ _ hx hp (i := 0) (by omega)
  have hall : ∀ i, i < 10001 → d.pdf fn (node fn d.xmin i) =
      some (d.shape (node fn d.xmin i) / (sumBelow fn d.shape d.xmin 10001 / 500)) := by
    intro i hi
    have h0 := node_le fn hf d.xmin (Nat.zero_le i)
    have h9 := node_le fn hf d.xmin (show i ≤ 10000 by omega)
    rw [node_zero fn hf d.xmin hx] at h0
    rw [node_last fn hf d.xmin hx] at h9
    have hc := (C91_count fn hf d hx hp).2 d.xmin (le_refl _)
    unfold Tab.count at hc
    unfold Tab.pdf
    rw [if_neg (by simp [ha]), if_neg (by push Not; exact ⟨h0, h9⟩)]
    unfold pdfTable
    rw [hc, if_neg (by positivity)]
    unfold cutoff
    rw [if_neg (not_lt.2 h0)]
  refine ⟨hall, ?_⟩
  obtain ⟨T, eT⟩ : ∃ T, T = sumBelow fn d.shape d.xmin 10001 := ⟨_, rfl⟩
  rw [← eT] at hT hall
  have hsum : ∀ i, i ≤ 10001 → sumBelow fn (value (d.pdf fn)) d.xmin i =
      sumBelow fn d.shape d.xmin i / (T / 500) := by
    intro i hi
    induction i with
    | zero => show (0 : ℝ) = 0 / _; rw [zero_div]
    | succ i ih =>
      rw [sumBelow, ih (by omega), sumBelow, add_div]
      congr 1
      unfold value
      rw [hall i (by omega)]
      rfl
  rw [hsum 10001 (le_refl _), ← eT]
  have := hT.ne'
  field_simp

/-- The full property for Schechter functions: the density is normalised. -/
def C93_full : Prop :=
  ∀ (sp : Special) (d : Schechter), Lawful sp → Inhabited d → tail (value (alone (d.pdf sp))) d.xmin = 1

/-- Whatever the shape, at most one amplitude is normalised: doubling the amplitudes doubles the integral. -/
theorem C93_full_false : ¬ C93_full := by
  intro h
  have i2 : Inhabited (single 1 (-3 / 2) 2 1) := by
    refine ⟨?_, (-3 / 2, 2), by simp [single], by norm_num⟩
    simp [Schechter.accepted, single]
  have h1 := h special _ special_lawful example_inhabited
  have h2 := h special _ special_lawful i2
  rw [C93_total special _ example_inhabited] at h1
  rw [C93_total special _ i2] at h2
  have e : schechter 1 [(-3 / 2, 2)] = fun t => 2 * schechter 1 [(-3 / 2, 1)] t := by
    funext t; simp [schechter]; ring
  have h3 : tail (schechter 1 [(-3 / 2, 2)]) 1 = 2 * tail (schechter 1 [(-3 / 2, 1)]) 1 := by
    rw [e]; unfold tail; rw [integral_const_mul]
  have h1' : tail (schechter 1 [(-3 / 2, 1)]) 1 = 1 := h1
  have h2' : tail (schechter 1 [(-3 / 2, 2)]) 1 = 1 := h2
  rw [h3, h1'] at h2'
  norm_num at h2'

end Verif.LF
