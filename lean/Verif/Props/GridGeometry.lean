import Verif.Lemmas.GridNew
import Mathlib.Tactic.IntervalCases
import Mathlib.Algebra.Order.Floor.Semiring
import Mathlib.Data.Rat.Floor

/-!
# C17, C59: the geometry of a new grid
-/

set_option linter.unusedSectionVars false

namespace Verif.Map

open Verif.Sim (Err)
open Spec

variable {K V : Type} [Field K] [LinearOrder K] [IsStrictOrderedRing K] [FloorRing K]

/-- The list of cell edges in the specification: one more than cells, cells of width `w`, the
centre of the extent is `c`. -/
theorem C17_edges_uniform (n : ℕ) (w c : K) :
    (edges n w c).length = n + 1 ∧ (middles n w c).length = n ∧
    (∀ j < n, ∃ lo hi mid, (edges n w c)[j]? = some lo ∧ (edges n w c)[j + 1]? = some hi ∧
      (middles n w c)[j]? = some mid ∧ hi - lo = w ∧ mid = (lo + hi) / 2) ∧
    (∃ first last, (edges n w c).head? = some first ∧ (edges n w c).getLast? = some last ∧
      (first + last) / 2 = c ∧ last - first = n * w) := by
  refine ⟨by simp [edges], by simp [middles], ?_, ?_⟩
  · intro j hj
    refine ⟨c - n * w / 2 + j * w, c - n * w / 2 + (j + 1) * w,
      c - n * w / 2 + (j + 1 / 2) * w, ?_, ?_, ?_, by ring, by ring⟩
    · simp [edges, List.getElem?_range (show j < n + 1 by omega)]
    · simp [edges, List.getElem?_range (show j + 1 < n + 1 by omega)]
    · simp [middles, List.getElem?_range hj]
  · refine ⟨c - n * w / 2 + (0 : ℕ) * w, c - n * w / 2 + n * w, ?_, ?_, ?_, ?_⟩
    · rw [List.head?_eq_getElem?]; simp [edges]
    · rw [List.getLast?_eq_getElem?]; simp [edges]
    · push_cast; ring
    · push_cast; ring

/-- The property: every positive side length and pixel size gives a regular grid with the
requested centre and pixel size whose extent covers the requested side length. -/
def C17_full (K V : Type) [Field K] [LinearOrder K] [FloorRing K] : Prop :=
  ∀ (m : ℕ) (center side pix : NArr K),
    side.vals.length = center.vals.length → pix.vals.length = center.vals.length →
    (∀ s ∈ side.vals, 0 < s) → (∀ w ∈ pix.vals, 0 < w) →
    ∃ g : Grid K V, Grid.new m center side pix = .ok g ∧ Regular g ∧
      ∀ (i : ℕ) (s w c : K), side.vals[i]? = some s → pix.vals[i]? = some w →
        center.vals[i]? = some c → ∃ n : ℕ, AxisIs g i n w c ∧ s ≤ n * w

theorem spreadSide_full (side : NArr K) (d : ℕ) (h : side.vals.length = d) :
    ∃ S : NArr K, spreadSide side d = .ok S ∧ S.vals = side.vals := by
  unfold spreadSide
  rcases side with ⟨b, l⟩
  match l, h with
  | [], h => exact ⟨⟨b, []⟩, by simp_all, rfl⟩
  | [x], h =>
    simp at h
    subst h
    exact ⟨⟨false, [x]⟩, by simp, rfl⟩
  | x :: y :: l, h => exact ⟨⟨b, x :: y :: l⟩, by simp_all, rfl⟩

/-- **C17** for grids of more than one (strictly, 1.05) pixel along each axis: the grid is regular,
has the requested centre and pixel sizes, and its extent along each axis is that of a whole
number of pixels, at least the requested one less a twentieth of a pixel. -/
theorem C17_grid_geometry_partial (m : ℕ) (center side pix : NArr K)
    (hs : side.vals.length = center.vals.length) (hp : pix.vals.length = center.vals.length)
    (hw : ∀ w ∈ pix.vals, 0 < w)
    (hmin : ∀ (i : ℕ) (s w : K), side.vals[i]? = some s → pix.vals[i]? = some w →
      (1 + 1 / 20) * w < s) :
    ∃ g : Grid K V, Grid.new m center side pix = .ok g ∧ Regular g ∧ g.center = center ∧
      g.pix = pix ∧ g.nProps = m ∧ g.nObj = 0 ∧ g.grid = none ∧ (∀ b ∈ g.fourier, b = false) ∧
      ∀ (i : ℕ) (s w c : K), side.vals[i]? = some s → pix.vals[i]? = some w →
        center.vals[i]? = some c →
        ∃ n : ℕ, AxisIs g i n w c ∧ s - w / 20 ≤ n * w ∧ n * w < s + 19 / 20 * w := by
  obtain ⟨S, hS, hSv⟩ := spreadSide_full side _ hs
  have hP : spreadPix pix center.vals.length = .ok pix := by simp [spreadPix, hp]
  obtain ⟨ns, hns⟩ : ∃ ns, mapE (fun p : K × K => pixelCount p.1 p.2) (S.vals.zip pix.vals) =
      .ok ns := by
    apply mapE_total
    intro q hq
    obtain ⟨i, hi⟩ := List.getElem?_of_mem hq
    rw [hSv, List.getElem?_zip_eq_some] at hi
    have h0 := hw q.2 (List.mem_of_getElem? hi.2)
    apply pixelCount_total _ _ h0
    rw [lt_div_iff₀ h0]
    exact hmin i _ _ hi.1 hi.2
  obtain ⟨g, h1, h2, h3, h4, h5, h6, h7, h8, -, -, -, h9, h10, -⟩ :=
    new_ok (V := V) m center side pix S pix none none _ _ hS hP rfl rfl hw ns hns
  refine ⟨g, h1, h2, h3, h4, h6, h7, h8, ?_, ?_⟩
  · intro b hb; rw [h9] at hb; exact (List.mem_replicate.1 hb).2
  · intro i s w c hi1 hi2 hi3
    have hi : i < g.dim := by
      rw [Grid.dim, h3]; exact (List.getElem?_eq_some_iff.1 hi3).1
    obtain ⟨n, w', c', a1, a2, a3⟩ := h2.axis i hi
    have e1 : w' = w := by
      have := a3.pix; rw [h4, hi2] at this; simpa using this.symm
    have e2 : c' = c := by
      have := a3.center; rw [h3, hi3] at this; simpa using this.symm
    subst e1 e2
    refine ⟨n, a3, ?_⟩
    have hn := a3.nPix
    rw [h5] at hn
    obtain ⟨⟨s', w''⟩, b1, b2⟩ := mapE_get hns i n hn
    rw [hSv, List.getElem?_zip_eq_some, hi1, hi2] at b1
    simp only [Option.some.injEq] at b1
    obtain ⟨rfl, rfl⟩ := b1
    obtain ⟨-, b3, b4⟩ := (pixelCount_ok _ _ a2 n).1 b2
    rw [lt_div_iff₀ a2] at b3
    rw [div_le_iff₀ a2] at b4
    constructor <;> linarith

/-- One side length or pixel size for all axes means the same as a list of equal ones. -/
theorem C17_scalar (m : ℕ) (center pix : NArr K) (b : Bool) (s : K) (au gu) :
    (Grid.new m center ⟨b, [s]⟩ pix au gu : Except Err (Grid K V)) =
      Grid.new m center ⟨false, List.replicate center.vals.length s⟩ pix au gu := by
  have : spreadSide (⟨b, [s]⟩ : NArr K) center.vals.length =
      spreadSide ⟨false, List.replicate center.vals.length s⟩ center.vals.length := by
    generalize center.vals.length = d
    match d with
    | 0 => simp [spreadSide]
    | 1 => simp [spreadSide]
    | d + 2 => simp [spreadSide, List.replicate_succ]
  simp only [Grid.new, this]

/-- Where it fails, first: a side length of at most 1.05 pixels on some axis (in particular one pixel)
never gives a grid. -/
theorem C17_single_cell_fails (m : ℕ) (center side pix : NArr K) (au gu)
    (hs : side.vals.length = center.vals.length) (hp : pix.vals.length = center.vals.length)
    (hw : ∀ w ∈ pix.vals, 0 < w) (i : ℕ) (s w : K) (h1 : side.vals[i]? = some s)
    (h2 : pix.vals[i]? = some w) (h : s ≤ (1 + 1 / 20) * w) :
    ∃ e, (Grid.new m center side pix au gu : Except Err (Grid K V)) = .error e := by
  obtain ⟨S, hS, hSv⟩ := spreadSide_full side _ hs
  have hP : spreadPix pix center.vals.length = .ok pix := by simp [spreadPix, hp]
  have hm : ∀ ns, mapE (fun p : K × K => pixelCount p.1 p.2) (S.vals.zip pix.vals) ≠ .ok ns := by
    intro ns hns
    have hz : (S.vals.zip pix.vals)[i]? = some (s, w) := by
      rw [hSv, List.getElem?_zip_eq_some]; exact ⟨h1, h2⟩
    obtain ⟨n, -, h3⟩ := ((mapE_ok_iff _ _ _).1 hns).2 i _ hz
    have h0 := hw w (List.mem_of_getElem? h2)
    obtain ⟨e, he⟩ := pixelCount_error s w h0 (by rw [div_le_iff₀ h0]; exact h)
    rw [he] at h3
    cases h3
  unfold Grid.new
  simp only [hS, hP]
  cases spreadUnits au center.vals.length with
  | error e => exact ⟨e, rfl⟩
  | ok au' =>
    simp only
    cases spreadUnits gu m with
    | error e => exact ⟨e, rfl⟩
    | ok gu' =>
      simp only
      cases hc : mapE (fun p : K × K => pixelCount p.1 p.2) (S.vals.zip pix.vals) with
      | error e => exact ⟨e, rfl⟩
      | ok ns => exact absurd hc (hm ns)

/-- Second: whenever the side length exceeds a whole number `k` of pixels by at most a twentieth of a
pixel, the grid has only `k` pixels there and does not cover the requested region. -/
theorem C17_extent_shrinks (m : ℕ) (center side pix : NArr K) (g : Grid K V)
    (hs : side.vals.length = center.vals.length) (hp : pix.vals.length = center.vals.length)
    (hw : ∀ w ∈ pix.vals, 0 < w)
    (hmin : ∀ (i : ℕ) (s w : K), side.vals[i]? = some s → pix.vals[i]? = some w →
      (1 + 1 / 20) * w < s)
    (hg : Grid.new m center side pix = .ok g) (i k : ℕ) (s w : K)
    (h1 : side.vals[i]? = some s) (h2 : pix.vals[i]? = some w) (h3 : k * w < s)
    (h4 : s ≤ (k + 1 / 20) * w) :
    ∃ c, AxisIs g i k w c ∧ (k : K) * w < s := by
  obtain ⟨g', e1, -, -, -, -, -, -, -, hax⟩ :=
    C17_grid_geometry_partial (V := V) m center side pix hs hp hw hmin
  rw [hg] at e1
  simp only [Except.ok.injEq] at e1
  subst e1
  have hi : i < center.vals.length := by
    rw [← hs]; exact (List.getElem?_eq_some_iff.1 h1).1
  obtain ⟨n, a1, a2, a3⟩ := hax i s w center.vals[i] h1 h2 (List.getElem?_eq_getElem hi)
  have h0 := hw w (List.mem_of_getElem? h2)
  have hnk : n = k := by
    have b1 : (n : K) < k + 1 := by
      have : (n : K) * w < (k + 1) * w := by nlinarith
      exact lt_of_mul_lt_mul_right this h0.le
    have b2 : (k : K) < n + 1 := by
      have : (k : K) * w < (n + 1) * w := by nlinarith
      exact lt_of_mul_lt_mul_right this h0.le
    have b1' : n < k + 1 := by exact_mod_cast b1
    have b2' : k < n + 1 := by exact_mod_cast b2
    omega
  subst hnk
  exact ⟨_, a1, h3⟩

/-- The full property fails: a grid of one pixel. -/
theorem C17_full_false : ¬ C17_full K V := by
  intro h
  obtain ⟨g, h1, -⟩ := h 1 ⟨false, [0]⟩ ⟨false, [1]⟩ ⟨false, [1]⟩ rfl rfl (by simp) (by simp)
  obtain ⟨e, he⟩ := C17_single_cell_fails (V := V) 1 (⟨false, [0]⟩ : NArr K) ⟨false, [1]⟩
    ⟨false, [1]⟩ none none rfl rfl (by simp) 0 1 1 rfl rfl (by norm_num)
  rw [h1] at he
  cases he

/-- Even grids of many pixels may not cover the region: side 10.05, pixel 1. -/
example : okAnd (Grid.new 1 ⟨false, [0]⟩ ⟨false, [201 / 20]⟩ ⟨false, [1]⟩)
    (fun g : Grid ℚ ℚ => g.nPix = [10] ∧ g.side.vals = [10]) = true := by
  decide +kernel

/-- The hypotheses of `C17_grid_geometry_partial` hold for the grid of `tests/test_gridder.py`. -/
example : okAnd (Grid.new 1 ⟨true, [5, 5]⟩ ⟨true, [10, 10]⟩ ⟨true, [1, 1]⟩)
    (fun g : Grid ℚ ℚ => g.nPix = [10, 10] ∧
      g.axes[0]? = some [0, 1, 2, 3, 4, 5, 6, 7, 8, 9, 10]) = true := by
  decide +kernel

/-! ## C59: Fourier axes -/

/-- The property: each cell centre of a Fourier axis is half-way between the edges of its cell. -/
def C59_full (K V : Type) [Field K] [LinearOrder K] : Prop :=
  ∀ (g : Grid K V), Regular g → ∀ i < g.dim, ∀ fc fe, g.fcenters[i]? = some fc →
    g.faxes[i]? = some fe → ∀ (k : ℕ) (c : K), fc[k]? = some c →
    ∃ lo hi, fe[k]? = some lo ∧ fe[k + 1]? = some hi ∧ c = (lo + hi) / 2

/-- It fails on every axis of every grid: the lower edge of each cell but the first is the
centre of the cell. -/
theorem C59_fourier_edges_wrong (g : Grid K V) (hg : Regular g) (i : ℕ) (hi : i < g.dim) :
    ∃ fc fe, g.fcenters[i]? = some fc ∧ g.faxes[i]? = some fe ∧ 2 ≤ fc.length ∧
      fe.length = fc.length + 1 ∧ ∀ k, 1 ≤ k → k < fc.length → fe[k]? = fc[k]? := by
  obtain ⟨n, w, c, hn, hw, ha⟩ := hg.axis i hi
  refine ⟨_, _, ha.fcenters, ha.faxes, by simpa [freqs] using hn, by simp [freqs, fedges], ?_⟩
  intro k h1 h2
  simp only [freqs, List.length_map, List.length_range] at h2
  simp only [fedges, freqs, List.getElem?_map, List.getElem?_range h2,
    List.getElem?_range (show k < n + 1 by omega), Option.map_some]
  rw [if_neg (by omega), if_neg (by omega)]

/-- **C59**, what does hold: the stored cell centres are the frequencies of the discrete
Fourier transform, equally spaced, in increasing order and with zero among them; the outermost edges
are half a step outside. -/
theorem C59_fourier_axes_partial (g : Grid K V) (hg : Regular g) (i : ℕ) (hi : i < g.dim) :
    ∃ (n : ℕ) (w : K) (fc fe : List K), g.nPix[i]? = some n ∧ g.pix.vals[i]? = some w ∧
      g.fcenters[i]? = some fc ∧ g.faxes[i]? = some fe ∧ fc.length = n ∧
      (∀ (k : ℕ) (a : K), fc[k]? = some a → a = ((k : K) - ((n / 2 : ℕ) : K)) * (1 / (n * w))) ∧
      fc[n / 2]? = some 0 ∧
      fe.head? = (fc.head?.map (· - (1 / (n * w)) / 2)) ∧
      fe.getLast? = (fc.getLast?.map (· + (1 / (n * w)) / 2)) := by
  obtain ⟨n, w, c, hn, hw, ha⟩ := hg.axis i hi
  refine ⟨n, w, _, _, ha.nPix, ha.pix, ha.fcenters, ha.faxes, by simp [freqs], ?_, ?_, ?_, ?_⟩
  · intro k a h
    have hk : k < n := by
      have := (List.getElem?_eq_some_iff.1 h).1; simpa [freqs] using this
    simp only [freqs, List.getElem?_map, List.getElem?_range hk, Option.map_some,
      Option.some.injEq] at h
    rw [← h]; ring
  · simp [freqs, List.getElem?_range (show n / 2 < n by omega)]
  · simp only [List.head?_eq_getElem?]
    simp only [fedges, freqs, List.getElem?_map, List.getElem?_range (show 0 < n by omega),
      List.getElem?_range (show 0 < n + 1 by omega), Option.map_some]
    simp only [if_true, Nat.cast_zero]
    congr 1; ring
  · simp only [List.getLast?_eq_getElem?]
    simp only [fedges, freqs, List.getElem?_map, List.length_map, List.length_range,
      List.getElem?_range (show n - 1 < n by omega), Nat.add_sub_cancel,
      List.getElem?_range (show n < n + 1 by omega), Option.map_some]
    rw [if_neg (by omega), if_pos trivial]
    congr 1
    rw [Nat.cast_sub (by omega)]
    push_cast; ring

theorem C59_full_false : ¬ C59_full K V := by
  intro h
  obtain ⟨g, hg, hr, hc, -⟩ := C17_grid_geometry_partial (V := V) 1 (⟨false, [0]⟩ : NArr K)
    ⟨false, [10]⟩ ⟨false, [1]⟩ rfl rfl (by simp) (by
      intro i s w h1 h2
      match i, h1, h2 with
      | 0, h1, h2 =>
        simp at h1 h2
        subst h1 h2
        norm_num)
  have hd : 0 < g.dim := by simp [Grid.dim, hc]
  obtain ⟨n, w, c, hn, hw, ha⟩ := hr.axis 0 hd
  obtain ⟨fc, fe, h1, h2, h3, h4, h5⟩ := C59_fourier_edges_wrong g hr 0 hd
  obtain ⟨lo, hi, b1, b2, b3⟩ := h g hr 0 hd fc fe h1 h2 1 fc[1] (List.getElem?_eq_getElem h3)
  have e1 := h5 1 le_rfl h3
  rw [b1, List.getElem?_eq_getElem h3] at e1
  simp only [Option.some.injEq] at e1
  -- the upper edge is above the lower one
  have hf := ha.fcenters
  have hfe := ha.faxes
  rw [h1] at hf
  rw [h2] at hfe
  simp only [Option.some.injEq] at hf hfe
  have hpos : (0 : K) < n * w := by
    have : (0 : K) < n := by exact_mod_cast (show 0 < n by omega)
    exact mul_pos this hw
  have hlt : lo < hi := by
    rw [hfe] at b1 b2
    simp only [fedges, List.getElem?_map, List.getElem?_range (show 1 < n + 1 by omega),
      List.getElem?_range (show 1 + 1 < n + 1 by omega), Option.map_some,
      Option.some.injEq] at b1 b2
    rw [if_neg (by omega), if_neg (by omega)] at b1
    rw [if_neg (by omega)] at b2
    rw [← b1, ← b2]
    split_ifs with h2n
    · apply div_lt_div_of_pos_right _ hpos
      have : (n : K) = 2 := by exact_mod_cast h2n.symm
      rw [this]; push_cast; linarith
    · apply div_lt_div_of_pos_right _ hpos
      push_cast; linarith
  rw [← e1] at b3
  linarith

end Verif.Map
