import Verif.Lemmas.GridCrop
import Verif.Props.GridGeometry

/-!
# C22: cropping
-/

set_option linter.unusedSectionVars false

namespace Verif.Map

open Verif.Sim (Err)
open Spec

variable {K V : Type} [Field K] [LinearOrder K] [IsStrictOrderedRing K] [FloorRing K]

/-- The property: `crop` keeps exactly the cells of the axis whose centre is within the limits,
or refuses, changing nothing, if there are none. -/
def C22_full (K V : Type) [Field K] [LinearOrder K] [FloorRing K] : Prop :=
  ∀ (g : Grid K V) (ax : ℕ) (cs : List K) (min max : Option K), Regular g →
    g.fourier[ax]? = some false → g.centers[ax]? = some cs →
    ((∃ x ∈ cs, Inside min max x) →
      ∃ g' a m, g.crop ax min max = (g', .ok ()) ∧ Cropped g g' ax a m ∧
        ∀ (j : ℕ) (x : K), cs[j]? = some x → ((a ≤ j ∧ j < a + m) ↔ Inside min max x)) ∧
    ((¬ ∃ x ∈ cs, Inside min max x) → ∃ e, g.crop ax min max = (g, .error e))

theorem middles_get {n : ℕ} {w c : K} {j : ℕ} {x : K} (h : (middles n w c)[j]? = some x) :
    j < n ∧ x = mid n w c j := by
  have hj : j < n := by
    have := (List.getElem?_eq_some_iff.1 h).1; simpa [middles] using this
  rw [middles_eq, List.getElem?_map, List.getElem?_range hj] at h
  simp only [Option.map_some, Option.some.injEq] at h
  exact ⟨hj, h.symm⟩

/-- **C22** for floating point grids and limits between which at least two cell centres lie:
exactly the cells with their centre within the limits are kept, with their edges, centres and values,
all other axes are as before, and the grid stays regular. -/
theorem C22_crop_partial (g : Grid K V) (hg : Regular g) (hfl : Floats g) (ax : ℕ) (cs : List K)
    (min max : Option K) (hf : g.fourier[ax]? = some false) (hcs : g.centers[ax]? = some cs)
    (i j : ℕ) (x y : K) (hij : i ≠ j) (hi : cs[i]? = some x) (hj : cs[j]? = some y)
    (hx : Inside min max x) (hy : Inside min max y) :
    ∃ g' a m, g.crop ax min max = (g', .ok ()) ∧ Cropped g g' ax a m ∧ Floats g' ∧
      ∀ (j : ℕ) (x : K), cs[j]? = some x → ((a ≤ j ∧ j < a + m) ↔ Inside min max x) := by
  have hax : ax < g.dim := by rw [← hg.centers]; exact (List.getElem?_eq_some_iff.1 hcs).1
  obtain ⟨n, w, c, hn, hw, ha⟩ := hg.axis ax hax
  have e := ha.centers
  rw [hcs] at e
  simp only [Option.some.injEq] at e
  subst e
  obtain ⟨lo, hi', a, m, h1, h2, h3, h4, h5, h6, h7⟩ :=
    crop_cases g hg hfl ax n w c hw ha hf min max
  obtain ⟨hin, rfl⟩ := middles_get hi
  obtain ⟨hjn, rfl⟩ := middles_get hj
  have hib := (h6 i hin).2 hx
  have hjb := (h6 j hjn).2 hy
  -- both within the limits
  have hlim : ∀ k < n, Inside min max (mid n w c k) → lo ≤ mid n w c k ∧ mid n w c k ≤ hi' := by
    intro k hk hin
    constructor
    · cases min with
      | some l => rw [← h2 l rfl]; exact hin.1 l rfl
      | none =>
        rw [h4 rfl]; unfold edge mid
        have : (0 : K) ≤ k := by exact_mod_cast Nat.zero_le k
        push_cast; nlinarith
    · cases max with
      | some l => rw [← h3 l rfl]; exact hin.2 l rfl
      | none =>
        rw [h5 rfl]; unfold edge mid
        have : (k : K) + 1 ≤ n := by exact_mod_cast hk
        nlinarith
  have li := hlim i hin hx
  have lj := hlim j hjn hy
  have hlt : lo < hi' := by
    rcases Nat.lt_or_gt_of_ne hij with h | h
    · exact li.1.trans_lt ((mid_mono hw h).trans_le lj.2)
    · exact lj.1.trans_lt ((mid_mono hw h).trans_le li.2)
  have hm : 2 ≤ m := by omega
  obtain ⟨c1, c2⟩ := cropMost_cropped g hg hfl ax n a m w c hw ha h1 hm
  refine ⟨_, a, m, ?_, c1, c2, ?_⟩
  · rw [h7, if_neg (not_le.2 hlt), if_neg, if_neg (by omega), if_neg (by omega)]
    rintro (h | h)
    · exact absurd (h i hin) (not_lt.2 li.2)
    · exact absurd (h i hin) (not_lt.2 li.1)
  · intro k z hz
    obtain ⟨hk, rfl⟩ := middles_get hz
    exact h6 k hk

/-- Refusals that leave the grid as it was: a maximum not above the minimum; all cell centres above
the maximum, or all below the minimum. -/
theorem C22_refusal (g : Grid K V) (hg : Regular g) (hfl : Floats g) (ax : ℕ) (cs : List K)
    (lo hi : K) (hf : g.fourier[ax]? = some false) (hcs : g.centers[ax]? = some cs)
    (h : hi ≤ lo ∨ (∀ x ∈ cs, hi < x) ∨ (∀ x ∈ cs, x < lo)) :
    g.crop ax (some lo) (some hi) = (g, .error .valueError) := by
  have hax : ax < g.dim := by rw [← hg.centers]; exact (List.getElem?_eq_some_iff.1 hcs).1
  obtain ⟨n, w, c, hn, hw, ha⟩ := hg.axis ax hax
  have e := ha.centers
  rw [hcs] at e
  simp only [Option.some.injEq] at e
  subst e
  obtain ⟨lo', hi', a, m, h1, h2, h3, h4, h5, h6, h7⟩ :=
    crop_cases g hg hfl ax n w c hw ha hf (some lo) (some hi)
  obtain rfl := h2 lo rfl
  obtain rfl := h3 hi rfl
  have hmem : ∀ j < n, mid n w c j ∈ middles n w c := fun j hj =>
    List.mem_map.2 ⟨j, List.mem_range.2 hj, rfl⟩
  rw [h7]
  rcases h with h | h | h
  · rw [if_pos h]
  · by_cases hlh : hi ≤ lo
    · rw [if_pos hlh]
    · rw [if_neg hlh, if_pos (Or.inl (fun j hj => h _ (hmem j hj)))]
  · by_cases hlh : hi ≤ lo
    · rw [if_pos hlh]
    · rw [if_neg hlh, if_pos (Or.inr (fun j hj => h _ (hmem j hj)))]

/-- Where it fails, first: limits that lie between two adjacent cell centres.  The call raises an
exception, but the data have been cropped to nothing already (whatever the grid). -/
theorem C22_gap_fails (g : Grid K V) (hg : Regular g) (hfl : Floats g) (ax : ℕ) (cs : List K)
    (lo hi : K) (hf : g.fourier[ax]? = some false) (hcs : g.centers[ax]? = some cs) (k : ℕ)
    (x y : K) (hx : cs[k]? = some x) (hy : cs[k + 1]? = some y)
    (h1 : x < lo) (h2 : lo < hi) (h3 : hi < y) :
    ∃ g' e, g.crop ax (some lo) (some hi) = (g', .error e) ∧ g'.centers[ax]? = some [] ∧
      ∀ a, g.grid = some a → ∃ b, g'.grid = some b ∧ b.shape[ax]? = some 0 := by
  have hax : ax < g.dim := by rw [← hg.centers]; exact (List.getElem?_eq_some_iff.1 hcs).1
  obtain ⟨n, w, c, hn, hw, ha⟩ := hg.axis ax hax
  have e := ha.centers
  rw [hcs] at e
  simp only [Option.some.injEq] at e
  subst e
  obtain ⟨lo', hi', a, m, k1, k2, k3, k4, k5, k6, k7⟩ :=
    crop_cases g hg hfl ax n w c hw ha hf (some lo) (some hi)
  obtain rfl := k2 lo rfl
  obtain rfl := k3 hi rfl
  obtain ⟨hkn, rfl⟩ := middles_get hx
  obtain ⟨hkn1, rfl⟩ := middles_get hy
  have hnone : ∀ j < n, ¬ Inside (some lo) (some hi) (mid n w c j) := by
    rintro j hj ⟨i1, i2⟩
    have i1 := i1 lo rfl
    have i2 := i2 hi rfl
    rcases Nat.lt_or_ge k j with hkj | hkj
    · have : mid n w c (k + 1) ≤ mid n w c j := by
        rcases Nat.lt_or_ge (k + 1) j with q | q
        · exact (mid_mono hw q).le
        · rw [show j = k + 1 by omega]
      linarith
    · have : mid n w c j ≤ mid n w c k := by
        rcases Nat.lt_or_ge j k with q | q
        · exact (mid_mono hw q).le
        · rw [show j = k by omega]
      linarith
  have hm : m = 0 := by
    by_contra hm
    exact hnone a (by omega) ((k6 a (by omega)).1 ⟨le_rfl, by omega⟩)
  refine ⟨cropStart g ax a m [], .valueError, ?_, ?_, ?_⟩
  · rw [k7, if_neg (not_le.2 h2), if_neg, if_pos hm]
    rintro (h | h)
    · exact absurd (h k hkn) (not_lt.2 (h1.trans h2).le)
    · exact absurd (h (k + 1) hkn1) (not_lt.2 (h2.trans h3).le)
  · simp [cropStart, hg.centers, hax]
  · intro b hb
    refine ⟨b.take (List.range' a m) ax, by simp [cropStart, hb], ?_⟩
    simp only [Arr.take, hg.data b hb, hm, List.range'_zero, List.length_nil]
    rw [List.getElem?_set_self (by simp [hg.nPix]; omega)]

/-- Second: limits that leave exactly one cell.  The call raises `IndexError`, with the data, edges,
centre and extent changed already. -/
theorem C22_one_cell_fails (g : Grid K V) (hg : Regular g) (hfl : Floats g) (ax : ℕ) (cs : List K)
    (lo hi : K) (hf : g.fourier[ax]? = some false) (hcs : g.centers[ax]? = some cs) (k : ℕ)
    (x : K) (hx : cs[k]? = some x) (h0 : lo < hi) (h1 : lo ≤ x) (h2 : x ≤ hi)
    (hone : ∀ (j : ℕ) (y : K), cs[j]? = some y → j ≠ k → ¬ (lo ≤ y ∧ y ≤ hi)) :
    ∃ g', g.crop ax (some lo) (some hi) = (g', .error .indexError) ∧ g'.nPix[ax]? = some 1 ∧
      ∀ a, g.grid = some a → ∃ b, g'.grid = some b ∧ b.shape[ax]? = some 1 := by
  have hax : ax < g.dim := by rw [← hg.centers]; exact (List.getElem?_eq_some_iff.1 hcs).1
  obtain ⟨n, w, c, hn, hw, ha⟩ := hg.axis ax hax
  have e := ha.centers
  rw [hcs] at e
  simp only [Option.some.injEq] at e
  subst e
  obtain ⟨lo', hi', a, m, k1, k2, k3, k4, k5, k6, k7⟩ :=
    crop_cases g hg hfl ax n w c hw ha hf (some lo) (some hi)
  obtain rfl := k2 lo rfl
  obtain rfl := k3 hi rfl
  obtain ⟨hkn, rfl⟩ := middles_get hx
  have hget : ∀ j < n, (middles n w c)[j]? = some (mid n w c j) := by
    intro j hj
    rw [middles_eq, List.getElem?_map, List.getElem?_range hj]
    rfl
  have hin : ∀ j, Inside (some lo) (some hi) (mid n w c j) ↔
      lo ≤ mid n w c j ∧ mid n w c j ≤ hi := by
    intro j; simp [Inside]
  have hk := (k6 k hkn).2 ((hin k).2 ⟨h1, h2⟩)
  have hm : m = 1 := by
    by_contra hm
    have hother : ∃ j, j ≠ k ∧ a ≤ j ∧ j < a + m := by
      by_cases hak : a = k
      · exact ⟨a + 1, by omega, by omega, by omega⟩
      · exact ⟨a, hak, le_rfl, by omega⟩
    obtain ⟨j, j1, j2, j3⟩ := hother
    exact hone j _ (hget j (by omega)) j1 ((hin j).1 ((k6 j (by omega)).1 ⟨j2, j3⟩))
  refine ⟨cropMost g ax a m w (blockCenter n w c a m), ?_, ?_, ?_⟩
  · rw [k7, if_neg (not_le.2 h0), if_neg, if_neg (by omega), if_pos hm]
    rintro (h | h)
    · exact absurd (h k hkn) (not_lt.2 h2)
    · exact absurd (h k hkn) (not_lt.2 h1)
  · simp [cropMost, hg.nPix, hax, hm]
  · intro b hb
    refine ⟨b.take (List.range' a m) ax, by simp [cropMost, hb], ?_⟩
    simp only [Arr.take, hg.data b hb, hm, List.length_range']
    rw [List.getElem?_set_self (by simp [hg.nPix]; omega)]

theorem C22_full_false : ¬ C22_full K V := by
  intro h
  obtain ⟨g, -, hr, hc, hp, -, -, hgn, hfo, hax⟩ := C17_grid_geometry_partial (V := V) 1
    (⟨false, [0]⟩ : NArr K) ⟨false, [10]⟩ ⟨false, [1]⟩ rfl rfl (by simp) (by
      intro i s w h1 h2
      match i, h1, h2 with
      | 0, h1, h2 =>
        simp at h1 h2
        subst h1 h2
        norm_num)
  have hd : 0 < g.dim := by simp [Grid.dim, hc]
  obtain ⟨n, w, c, hn, hw, ha⟩ := hr.axis 0 hd
  have hfo' : g.fourier[0]? = some false := by
    have hl : 0 < g.fourier.length := by rw [hr.fourier]; exact hd
    rw [List.getElem?_eq_getElem hl, hfo _ (List.getElem_mem _)]
  have hget : ∀ j < n, (middles n w c)[j]? = some (mid n w c j) := by
    intro j hj
    rw [middles_eq, List.getElem?_map, List.getElem?_range hj]
    rfl
  have hm := mid_mono (n := n) (c := c) hw (show 0 < 1 by omega)
  set x := mid n w c 0 with hx
  set y := mid n w c 1 with hy
  set lo := (2 * x + y) / 3 with hlo
  set hi := (x + 2 * y) / 3 with hhi
  have l1 : x < lo := by rw [hlo, lt_div_iff₀ (by norm_num)]; linarith
  have l2 : lo < hi := by rw [hlo, hhi]; apply div_lt_div_of_pos_right _ (by norm_num); linarith
  have l3 : hi < y := by rw [hhi, div_lt_iff₀ (by norm_num)]; linarith
  -- a floating point copy of the grid
  let g1 : Grid K V := { g with center := ⟨false, g.center.vals⟩, side := ⟨false, g.side.vals⟩,
                                pix := ⟨false, g.pix.vals⟩ }
  have ax1 : ∀ i n w c, AxisIs g i n w c → AxisIs g1 i n w c :=
    fun i n w c q => ⟨q.1, q.2, q.3, q.4, q.5, q.6, q.7, q.8⟩
  have hr1 : Regular g1 := ⟨hr.1, hr.2, hr.3, hr.4, hr.5, hr.6, hr.7, hr.8, fun i hi => by
    obtain ⟨n, w, c, q1, q2, q3⟩ := hr.axis i hi
    exact ⟨n, w, c, q1, q2, ax1 i n w c q3⟩, hr.10⟩
  have hf1 : Floats g1 := ⟨rfl, rfl, rfl⟩
  have hall := h g1 0 _ (some lo) (some hi) hr1 hfo' ha.centers
  obtain ⟨g', e, c1, c2, -⟩ := C22_gap_fails g1 hr1 hf1 0 _ lo hi hfo' ha.centers 0 x y
    (hget 0 (by omega)) (hget 1 (by omega)) l1 l2 l3
  by_cases hin : ∃ x ∈ middles n w c, Inside (some lo) (some hi) x
  · obtain ⟨g'', a, m, d1, -⟩ := hall.1 hin
    rw [c1] at d1
    simp at d1
  · obtain ⟨e', d1⟩ := hall.2 hin
    rw [c1] at d1
    simp only [Prod.mk.injEq] at d1
    rw [d1.1] at c2
    have : g1.centers[0]? = some (middles n w c) := ha.centers
    rw [c2] at this
    simp only [Option.some.injEq] at this
    have := congrArg List.length this
    simp [middles] at this
    omega

/-- Third: integer arrays.  After cropping the grid of `tests/test_gridder.py` to `[0, 3]` the centre is
stored as 1 instead of 3/2: new objects are added to the wrong cells. -/
example : okAnd (Grid.new 1 ⟨true, [5, 5]⟩ ⟨true, [10, 10]⟩ ⟨true, [1, 1]⟩)
    (fun g : Grid ℚ ℚ => (g.crop 0 (some 0) (some 3)).1.center = ⟨true, [1, 5]⟩ ∧
      (g.crop 0 (some 0) (some 3)).1.side = ⟨true, [3, 10]⟩ ∧
      (g.crop 0 (some 0) (some 3)).1.axes[0]? = some ([0, 1, 2, 3] : List ℚ)) = true := by
  decide +kernel

/-- The hypotheses of `C22_crop_partial` hold for a floating point copy of that grid. -/
example : okAnd (Grid.new 1 ⟨false, [5, 5]⟩ ⟨false, [10, 10]⟩ ⟨false, [1, 1]⟩)
    (fun g : Grid ℚ ℚ => (g.crop 0 (some 0) (some 3)).1.center = ⟨false, [3 / 2, 5]⟩ ∧
      (g.crop 0 (some 0) (some 3)).1.axes[0]? = some ([0, 1, 2, 3] : List ℚ) ∧
      (g.crop 0 (some 0) (some 3)).1.centers[0]? = some ([1 / 2, 3 / 2, 5 / 2] : List ℚ)) = true := by
  decide +kernel

end Verif.Map
