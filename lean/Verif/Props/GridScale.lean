import Verif.Lemmas.GridPad
import Verif.Props.GridGeometry

/-!
# C61: rescaling axes
-/

set_option linter.unusedSectionVars false

namespace Verif.Map

open Verif.Sim (Err)
open Spec

variable {K V : Type} [Field K] [LinearOrder K] [IsStrictOrderedRing K] [FloorRing K]

theorem edges_scale (n : ℕ) (w c f : K) : (edges n w c).map (· * f) = edges n (w * f) (c * f) := by
  unfold edges
  rw [List.map_map]
  refine List.map_congr_left (fun j _ => ?_)
  simp only [Function.comp_apply]; ring

theorem middles_scale (n : ℕ) (w c f : K) :
    (middles n w c).map (· * f) = middles n (w * f) (c * f) := by
  unfold middles
  rw [List.map_map]
  refine List.map_congr_left (fun j _ => ?_)
  simp only [Function.comp_apply]; ring

theorem freqs_scale (n : ℕ) (w f : K) : (freqs n w).map (· / f) = freqs n (w * f) := by
  unfold freqs
  rw [List.map_map]
  refine List.map_congr_left (fun j _ => ?_)
  simp only [Function.comp_apply, div_div]
  rw [mul_assoc]

theorem fedges_scale (n : ℕ) (w f : K) : (fedges n w).map (· / f) = fedges n (w * f) := by
  unfold fedges
  rw [List.map_map]
  refine List.map_congr_left (fun j _ => ?_)
  simp only [Function.comp_apply]
  split_ifs <;> rw [div_div, mul_assoc]

/-- One pass of the loop scales one axis and keeps the rest. -/
theorem scaleOne_ok (g : Grid K V) (hg : Regular g) (hfl : Floats g) (factor : List K) (i : ℕ)
    (hi : i < g.dim) (f : K) (hf : factor[i]? = some f) (h0 : 0 < f) :
    ∃ g', scaleOne g factor true i = (g', .ok ()) ∧ Regular g' ∧ Floats g' ∧
      g'.dim = g.dim ∧ g'.nPix = g.nPix ∧ g'.nProps = g.nProps ∧ g'.nObj = g.nObj ∧
      g'.grid = g.grid ∧ g'.fourier = g.fourier ∧ g'.isPow = g.isPow ∧
      (∀ n w c, AxisIs g i n w c → AxisIs g' i n (w * f) (c * f)) ∧
      ∀ j, j ≠ i → ∀ n w c, AxisIs g j n w c → AxisIs g' j n w c := by
  refine ⟨(scaleOne g factor true i).1, ?_⟩
  have hc : i < g.center.vals.length := hi
  have hmain : ∀ n w c, AxisIs g i n w c →
      AxisIs (scaleOne g factor true i).1 i n (w * f) (c * f) := by
    intro n w c a
    have p1 := (List.getElem?_eq_some_iff.1 a.pix).2
    have p2 := (List.getElem?_eq_some_iff.1 a.center).2
    have p3 := (List.getElem?_eq_some_iff.1 a.side).2
    constructor
    · simp [scaleOne, hf, a.nPix]
    · simp [scaleOne, hf, NArr.put, hfl.2.2, p1, hg.pix, hi]
    · simp [scaleOne, hf, NArr.put, hfl.1, p2, hc]
    · simp [scaleOne, hf, NArr.put, hfl.2.1, p3, hg.side, hi, mul_assoc]
    · simp [scaleOne, hf, a.axes, edges_scale]
    · simp [scaleOne, hf, a.centers, middles_scale]
    · simp [scaleOne, hf, a.fcenters, freqs_scale]
    · simp [scaleOne, hf, a.faxes, fedges_scale]
  have hother : ∀ j, j ≠ i → ∀ n w c, AxisIs g j n w c →
      AxisIs (scaleOne g factor true i).1 j n w c := by
    intro j hj n w c a
    have hj' : i ≠ j := fun e => hj e.symm
    constructor <;> simp [scaleOne, hf, NArr.put, hj', a.nPix, a.pix,
      a.center, a.side, a.axes, a.centers, a.fcenters, a.faxes]
  have hdim : (scaleOne g factor true i).1.dim = g.dim := by
    simp [scaleOne, hf, Grid.dim, NArr.put]
  refine ⟨by simp [scaleOne, hf], ?_, ?_, hdim, by simp [scaleOne, hf], by simp [scaleOne, hf],
    by simp [scaleOne, hf], by simp [scaleOne, hf], by simp [scaleOne, hf],
    by simp [scaleOne, hf], hmain, hother⟩
  · refine ⟨?_, ?_, ?_, ?_, ?_, ?_, ?_, ?_, ?_, ?_⟩
    · rw [hdim]; simp [scaleOne, hf, hg.nPix]
    · rw [hdim]; simp [scaleOne, hf, NArr.put, hg.pix]
    · rw [hdim]; simp [scaleOne, hf, NArr.put, hg.side]
    · rw [hdim]; simp [scaleOne, hf, hg.axes]
    · rw [hdim]; simp [scaleOne, hf, hg.centers]
    · rw [hdim]; simp [scaleOne, hf, hg.fcenters]
    · rw [hdim]; simp [scaleOne, hf, hg.faxes]
    · rw [hdim]; simp [scaleOne, hf, hg.fourier]
    · intro j hj
      rw [hdim] at hj
      obtain ⟨n, w, c, h1, h2, h3⟩ := hg.axis j hj
      by_cases hij : j = i
      · subst hij
        exact ⟨n, w * f, c * f, h1, mul_pos h2 h0, hmain n w c h3⟩
      · exact ⟨n, w, c, h1, h2, hother j hij n w c h3⟩
    · intro a ha
      have e1 : (scaleOne g factor true i).1.grid = g.grid := by simp [scaleOne, hf]
      have e2 : (scaleOne g factor true i).1.nPix = g.nPix := by simp [scaleOne, hf]
      have e3 : (scaleOne g factor true i).1.nProps = g.nProps := by simp [scaleOne, hf]
      rw [e1] at ha
      rw [e2, e3]
      exact hg.data a ha
  · refine ⟨?_, ?_, ?_⟩
    · simp [scaleOne, hf, NArr.put, hfl.1]
    · simp [scaleOne, hf, NArr.put, hfl.2.1]
    · simp [scaleOne, hf, NArr.put, hfl.2.2]

/-- The loop scales axis `i` by `factor[i]`. -/
theorem scaleLoop_ok (factor : List K) (ax : List ℕ) (hnd : ax.Nodup) (g : Grid K V)
    (hg : Regular g) (hfl : Floats g)
    (hax : ∀ i ∈ ax, i < g.dim ∧ ∃ f, factor[i]? = some f ∧ 0 < f) :
    ∃ g', scaleLoop factor true ax g = (g', .ok ()) ∧ Regular g' ∧ Floats g' ∧
      g'.dim = g.dim ∧ g'.nPix = g.nPix ∧ g'.nProps = g.nProps ∧ g'.nObj = g.nObj ∧
      g'.grid = g.grid ∧ g'.fourier = g.fourier ∧ g'.isPow = g.isPow ∧
      (∀ i ∈ ax, ∀ f, factor[i]? = some f → ∀ n w c, AxisIs g i n w c →
        AxisIs g' i n (w * f) (c * f)) ∧
      ∀ j, j ∉ ax → ∀ n w c, AxisIs g j n w c → AxisIs g' j n w c := by
  induction ax generalizing g with
  | nil =>
    exact ⟨g, rfl, hg, hfl, rfl, rfl, rfl, rfl, rfl, rfl, rfl, by simp, fun _ _ _ _ _ h => h⟩
  | cons i ax ih =>
    obtain ⟨hi, f, hf, h0⟩ := hax i (List.mem_cons_self ..)
    obtain ⟨g1, a1, a2, a3, a4, a5, a6, a7, a8, a9, a10, a11, a12⟩ :=
      scaleOne_ok g hg hfl factor i hi f hf h0
    rw [List.nodup_cons] at hnd
    obtain ⟨g2, b1, b2, b3, b4, b5, b6, b7, b8, b9, b10, b11, b12⟩ := ih hnd.2 g1 a2 a3
      (fun j hj => by rw [a4]; exact hax j (List.mem_cons_of_mem _ hj))
    refine ⟨g2, ?_, b2, b3, b4.trans a4, b5.trans a5, b6.trans a6, b7.trans a7, b8.trans a8,
      b9.trans a9, b10.trans a10, ?_, ?_⟩
    · simp only [scaleLoop, a1]; exact b1
    · intro j hj f' hf' n w c q
      rcases List.mem_cons.1 hj with e | e
      · subst e
        rw [hf] at hf'
        simp only [Option.some.injEq] at hf'
        subst hf'
        exact b12 j hnd.1 n _ _ (a11 n w c q)
      · have hji : j ≠ i := fun e' => hnd.1 (e' ▸ e)
        exact b11 j e f' hf' n w c (a12 j hji n w c q)
    · intro j hj n w c q
      rw [List.mem_cons, not_or] at hj
      exact b12 j hj.2 n w c (a12 j hj.1 n w c q)

/-- The property: each of the given axes is scaled by the factor given for it (`ax[j]` by
`factor[j]`), for any list of distinct axes. -/
def C61_full (K V : Type) [Field K] [LinearOrder K] [FloorRing K] : Prop :=
  ∀ (g : Grid K V) (ax : List ℕ) (factor : List K), Regular g → ax.Nodup →
    (∀ i ∈ ax, i < g.dim) → factor.length = ax.length → (∀ f ∈ factor, 0 < f) →
    ∃ g', g.scaleAxis ax factor = (g', .ok ()) ∧ Regular g' ∧
      ∀ (j i n : ℕ) (f w c : K), ax[j]? = some i → factor[j]? = some f → AxisIs g i n w c →
        AxisIs g' i n (w * f) (c * f)

/-- **C61** for floating point grids and lists in which the factor for axis `i` is at position `i`
(for example the first axes in order): the axes are scaled by the factors given for them, the
others and the data stay. -/
theorem C61_scale_partial (g : Grid K V) (hg : Regular g) (hfl : Floats g) (ax : List ℕ)
    (factor : List K) (hnd : ax.Nodup) (hax : ∀ i ∈ ax, i < g.dim)
    (hlen : factor.length = ax.length) (h0 : ∀ f ∈ factor, 0 < f)
    (hal : ∀ (j i : ℕ), ax[j]? = some i → factor[i]? = factor[j]?) :
    ∃ g', g.scaleAxis ax factor = (g', .ok ()) ∧ Regular g' ∧ Floats g' ∧ g'.grid = g.grid ∧
      g'.nPix = g.nPix ∧ g'.nProps = g.nProps ∧
      (∀ (j i n : ℕ) (f w c : K), ax[j]? = some i → factor[j]? = some f → AxisIs g i n w c →
        AxisIs g' i n (w * f) (c * f)) ∧
      ∀ i, i ∉ ax → ∀ n w c, AxisIs g i n w c → AxisIs g' i n w c := by
  have hsp : scaleSpread factor ax.length = .ok factor := by
    unfold scaleSpread
    by_cases h : factor.length = 1
    · rw [if_pos h]
      obtain ⟨f, rfl⟩ := List.length_eq_one_iff.1 h
      rw [← hlen]
      rfl
    · rw [if_neg h, if_pos hlen]
  obtain ⟨g', a1, a2, a3, a4, a5, a6, a7, a8, a9, a10, a11, a12⟩ :=
    scaleLoop_ok factor ax hnd g hg hfl (by
      intro i hi
      refine ⟨hax i hi, ?_⟩
      obtain ⟨j, hj⟩ := List.getElem?_of_mem hi
      have hjl := (List.getElem?_eq_some_iff.1 hj).1
      have hfj : factor[j]? = some (factor[j]'(by omega)) := List.getElem?_eq_getElem (by omega)
      exact ⟨_, (hal j i hj).trans hfj, h0 _ (List.getElem_mem _)⟩)
  refine ⟨g', ?_, a2, a3, a8, a5, a6, ?_, a12⟩
  · unfold Grid.scaleAxis
    rw [if_neg (by rintro ⟨a, h1, h2⟩; exact absurd (hax a h1) (by omega)), hsp]
    exact a1
  · intro j i n f w c hj hf q
    exact a11 i (List.mem_of_getElem? hj) f ((hal j i hj).trans hf) n w c q

/-- Where it fails: a single axis other than the first cannot be scaled at all (`IndexError`). -/
theorem C61_single_axis_fails (g : Grid K V) (a : ℕ) (ha : a < g.dim) (h0 : a ≠ 0) (f : K) (sc : Bool) :
    g.scaleAxis [a] [f] sc = (g, .error .indexError) := by
  unfold Grid.scaleAxis
  rw [if_neg (by simpa using ha)]
  have : scaleSpread [f] [a].length = .ok [f] := by simp [scaleSpread]
  rw [this]
  have hn : [f][a]? = none := List.getElem?_eq_none (by simp; omega)
  simp only [scaleLoop, scaleOne, hn]

/-- Two axes in reverse order get each other's factors. -/
theorem C61_reversed_axes_swapped (g : Grid K V) (hg : Regular g) (hfl : Floats g)
    (hd : 2 ≤ g.dim) (f0 f1 : K) (h0 : 0 < f0) (h1 : 0 < f1) :
    ∃ g', g.scaleAxis [1, 0] [f1, f0] = (g', .ok ()) ∧
      (∀ n w c, AxisIs g 0 n w c → AxisIs g' 0 n (w * f1) (c * f1)) ∧
      (∀ n w c, AxisIs g 1 n w c → AxisIs g' 1 n (w * f0) (c * f0)) := by
  obtain ⟨g', a1, a2, a3, a4, a5, a6, a7, a8, a9, a10, a11, a12⟩ :=
    scaleLoop_ok [f1, f0] [1, 0] (by simp) g hg hfl (by
      intro i hi
      simp only [List.mem_cons, List.not_mem_nil, or_false] at hi
      rcases hi with rfl | rfl
      · exact ⟨by omega, f0, rfl, h0⟩
      · exact ⟨by omega, f1, rfl, h1⟩)
  refine ⟨g', ?_, fun n w c q => a11 0 (by simp) f1 rfl n w c q,
    fun n w c q => a11 1 (by simp) f0 rfl n w c q⟩
  unfold Grid.scaleAxis
  rw [if_neg (by simp; omega)]
  have : scaleSpread [f1, f0] [1, 0].length = .ok [f1, f0] := by simp [scaleSpread]
  rw [this]
  exact a1

/-- With `scalecenter=False` the call always raises `AttributeError`, after side length and pixel
size have been changed. -/
theorem C61_fixed_center_fails (g : Grid K V) (hd : 0 < g.dim) (f : K) :
    ∃ g', g.scaleAxis [0] [f] false = (g', .error .attributeError) ∧
      g'.side = g.side.put 0 (g.side.vals.getD 0 0 * f) ∧
      g'.pix = g.pix.put 0 (g.pix.vals.getD 0 0 * f) ∧ g'.axes = g.axes := by
  unfold Grid.scaleAxis
  rw [if_neg (by simp; omega)]
  have : scaleSpread [f] [0].length = .ok [f] := by simp [scaleSpread]
  rw [this]
  simp [scaleLoop, scaleOne]

theorem C61_full_false : ¬ C61_full K V := by
  intro h
  obtain ⟨g, -, hr, hc, -⟩ := C17_grid_geometry_partial (V := V) 1 (⟨false, [0, 0]⟩ : NArr K)
    ⟨false, [10, 10]⟩ ⟨false, [1, 1]⟩ rfl rfl (by simp) (by
      intro i s w h1 h2
      match i, h1, h2 with
      | 0, h1, h2 => simp at h1 h2; subst h1 h2; norm_num
      | 1, h1, h2 => simp at h1 h2; subst h1 h2; norm_num)
  have hd : g.dim = 2 := by simp [Grid.dim, hc]
  obtain ⟨g', h1, -⟩ := h g [1] [2] hr (by simp) (by simp [hd]) rfl (by simp)
  rw [C61_single_axis_fails g 1 (by omega) (by omega)] at h1
  simp at h1

/-- Integer arrays: halving an axis of integer pixels makes them 0. -/
example : okAnd (Grid.new 1 ⟨true, [5, 5]⟩ ⟨true, [10, 10]⟩ ⟨true, [1, 1]⟩)
    (fun g : Grid ℚ ℚ => (g.scaleAxis [0] [1 / 2]).1.pix.vals = [0, 1]) = true := by
  decide +kernel

/-- A case of `C61_scale_partial`. -/
example : okAnd (Grid.new 1 ⟨false, [5, 5]⟩ ⟨false, [10, 10]⟩ ⟨false, [1, 1]⟩)
    (fun g : Grid ℚ ℚ => (g.scaleAxis [0, 1] [1 / 2, 3]).1.pix.vals = [1 / 2, 3] ∧
      (g.scaleAxis [0, 1] [1 / 2, 3]).1.center.vals = [5 / 2, 15]) = true := by
  decide +kernel

end Verif.Map
