import Verif.Lemmas.GridPad
import Mathlib.Order.MinMax

/-!
# Cropping
-/

set_option linter.unusedSectionVars false

namespace Verif.Map

open Verif.Sim (Err)
open Spec

/-- A convex set of positions is a block. -/
theorem filter_range_block (P : ℕ → Bool)
    (hc : ∀ i j k, i < j → j < k → P i = true → P k = true → P j = true) (n : ℕ) :
    ∃ a m, (List.range n).filter P = List.range' a m ∧ a + m ≤ n := by
  induction n with
  | zero => exact ⟨0, 0, rfl, le_rfl⟩
  | succ n ih =>
    obtain ⟨a, m, h1, h2⟩ := ih
    rw [List.range_succ, List.filter_append, h1]
    by_cases hn : P n = true
    · simp only [List.filter_cons, hn, if_true, List.filter_nil]
      by_cases hm : m = 0
      · subst hm
        exact ⟨n, 1, by simp, le_rfl⟩
      · have ham : a + m = n := by
          by_contra hne
          have hlt : a + m < n := by omega
          have hlast : a + m - 1 ∈ (List.range n).filter P := by
            rw [h1, List.mem_range'_1]; omega
          have hp : P (a + m - 1) = true := (List.mem_filter.1 hlast).2
          have hq := hc (a + m - 1) (a + m) n (by omega) hlt hp hn
          have : a + m ∈ (List.range n).filter P :=
            List.mem_filter.2 ⟨List.mem_range.2 hlt, hq⟩
          rw [h1, List.mem_range'_1] at this
          omega
        refine ⟨a, m + 1, ?_, by omega⟩
        rw [List.range'_1_concat, ham]
    · simp only [List.filter_cons, hn, List.filter_nil]
      exact ⟨a, m, by simp, by omega⟩

variable {K V : Type} [Field K] [LinearOrder K] [IsStrictOrderedRing K] [FloorRing K]

/-- The centre of cell `j`. -/
def mid (n : ℕ) (w c : K) (j : ℕ) : K := c - n * w / 2 + ((j : K) + 1 / 2) * w

theorem middles_eq (n : ℕ) (w c : K) : middles n w c = (List.range n).map (mid n w c) := rfl

theorem mid_mono {n : ℕ} {w c : K} (hw : 0 < w) {i j : ℕ} (h : i < j) :
    mid n w c i < mid n w c j := by
  unfold mid
  have : (i : K) < j := by exact_mod_cast h
  nlinarith

/-- The edge of cell `j`. -/
def edge (n : ℕ) (w c : K) (j : ℕ) : K := c - n * w / 2 + (j : K) * w

theorem edges_eq (n : ℕ) (w c : K) : edges n w c = (List.range (n + 1)).map (edge n w c) := rfl

theorem edge_mono {n : ℕ} {w c : K} (hw : 0 < w) {i j : ℕ} (h : i ≤ j) :
    edge n w c i ≤ edge n w c j := by
  unfold edge
  have : (i : K) ≤ j := by exact_mod_cast h
  nlinarith

theorem min?_map_range (n : ℕ) (f : ℕ → K) (hf : ∀ i j, i ≤ j → f i ≤ f j) :
    ((List.range (n + 1)).map f).min? = some (f 0) := by
  rw [List.min?_eq_some_iff]
  refine ⟨List.mem_map.2 ⟨0, by simp, rfl⟩, ?_⟩
  intro b hb
  obtain ⟨j, -, rfl⟩ := List.mem_map.1 hb
  exact hf 0 j (Nat.zero_le _)

theorem max?_map_range (n : ℕ) (f : ℕ → K) (hf : ∀ i j, i ≤ j → f i ≤ f j) :
    ((List.range (n + 1)).map f).max? = some (f n) := by
  rw [List.max?_eq_some_iff]
  refine ⟨List.mem_map.2 ⟨n, by simp, rfl⟩, ?_⟩
  intro b hb
  obtain ⟨j, hj, rfl⟩ := List.mem_map.1 hb
  exact hf j n (by have := List.mem_range.1 hj; omega)

/-- The limits used by `crop`. -/
theorem limits (n : ℕ) (w c : K) (hw : 0 < w) (min max : Option K) :
    ∃ lo hi, min.or (edges n w c).min? = some lo ∧
      max.or (edges n w c).max? = some hi ∧
      (∀ l, min = some l → l = lo) ∧ (∀ h, max = some h → h = hi) ∧
      (min = none → lo = edge n w c 0) ∧ (max = none → hi = edge n w c n) ∧
      ∀ j < n, (lo ≤ mid n w c j ∧ mid n w c j ≤ hi ↔ Inside min max (mid n w c j)) := by
  have hlo : (edges n w c).min? = some (edge n w c 0) :=
    min?_map_range n (edge n w c) (fun i j h => edge_mono hw h)
  have hhi : (edges n w c).max? = some (edge n w c n) :=
    max?_map_range n (edge n w c) (fun i j h => edge_mono hw h)
  have h1 : ∀ j, edge n w c 0 ≤ mid n w c j := by
    intro j
    unfold edge mid
    have : (0 : K) ≤ j := by exact_mod_cast Nat.zero_le j
    push_cast
    nlinarith
  have h2 : ∀ j < n, mid n w c j ≤ edge n w c n := by
    intro j hj
    unfold edge mid
    have : (j : K) + 1 ≤ n := by exact_mod_cast hj
    nlinarith
  cases min with
  | none =>
    cases max with
    | none =>
      refine ⟨_, _, hlo, hhi, by simp, by simp, by simp, by simp, ?_⟩
      intro j hj
      simp [Inside, h1 j, h2 j hj]
    | some b =>
      refine ⟨_, b, hlo, rfl, by simp, by simp, by simp, by simp, ?_⟩
      intro j hj
      simp [Inside, h1 j]
  | some a =>
    cases max with
    | none =>
      refine ⟨a, _, rfl, hhi, by simp, by simp, by simp, by simp, ?_⟩
      intro j hj
      simp [Inside, h2 j hj]
    | some b =>
      refine ⟨a, b, rfl, rfl, by simp, by simp, by simp, by simp, ?_⟩
      intro j hj
      simp [Inside]

/-- The kept positions form a block. -/
theorem kept (n : ℕ) (w c : K) (hw : 0 < w) (lo hi : K) :
    ∃ a m, a + m ≤ n ∧
      (List.range (middles n w c).length).filter (fun j =>
        decide (lo ≤ (middles n w c).getD j 0) && decide ((middles n w c).getD j 0 ≤ hi)) =
          List.range' a m ∧
      (middles n w c).filter (fun x => decide (lo ≤ x) && decide (x ≤ hi)) =
        (List.range' a m).map (mid n w c) ∧
      ∀ j < n, ((a ≤ j ∧ j < a + m) ↔ (lo ≤ mid n w c j ∧ mid n w c j ≤ hi)) := by
  set P : ℕ → Bool := fun j => decide (lo ≤ mid n w c j) && decide (mid n w c j ≤ hi) with hP
  have hc : ∀ i j k, i < j → j < k → P i = true → P k = true → P j = true := by
    intro i j k hij hjk h1 h2
    simp only [hP, Bool.and_eq_true, decide_eq_true_eq] at h1 h2 ⊢
    exact ⟨h1.1.trans (mid_mono hw hij).le, (mid_mono hw hjk).le.trans h2.2⟩
  obtain ⟨a, m, h1, h2⟩ := filter_range_block P hc n
  have hlen : (middles n w c).length = n := by simp [middles]
  have hget : ∀ j < n, (middles n w c).getD j 0 = mid n w c j := by
    intro j hj
    rw [List.getD_eq_getElem?_getD, middles_eq, List.getElem?_map, List.getElem?_range hj]
    rfl
  refine ⟨a, m, h2, ?_, ?_, ?_⟩
  · rw [hlen, ← h1]
    apply List.filter_congr
    intro j hj
    rw [List.mem_range] at hj
    rw [hget j hj]
  · rw [middles_eq, List.filter_map, ← h1]
    rfl
  · intro j hj
    have : j ∈ (List.range n).filter P ↔ j ∈ List.range' a m := by rw [h1]
    rw [List.mem_filter, List.mem_range, List.mem_range'_1] at this
    simp only [hP, Bool.and_eq_true, decide_eq_true_eq] at this
    constructor
    · intro h; exact (this.2 h).2
    · intro h; exact this.1 ⟨hj, h⟩

theorem map_range'_eq {α : Type} (f : ℕ → α) (a m : ℕ) :
    (List.range' a m).map f = (List.range m).map (fun j : ℕ => f (a + j)) := by
  rw [List.range'_eq_map_range, List.map_map]
  rfl

/-- The centre of a block of cells. -/
def blockCenter (n : ℕ) (w c : K) (a m : ℕ) : K := edge n w c a + m * w / 2

theorem mid_block (n : ℕ) (w c : K) (a m : ℕ) :
    (List.range' a m).map (mid n w c) = middles m w (blockCenter n w c a m) := by
  rw [map_range'_eq, middles_eq]
  refine List.map_congr_left (fun j _ => ?_)
  unfold mid blockCenter edge
  push_cast; ring

theorem edge_block (n : ℕ) (w c : K) (a m : ℕ) :
    (List.range' a (m + 1)).map (edge n w c) = edges m w (blockCenter n w c a m) := by
  rw [map_range'_eq, edges_eq]
  refine List.map_congr_left (fun j _ => ?_)
  unfold edge blockCenter edge
  push_cast; ring

/-- The new edges. -/
theorem crop_edges (n : ℕ) (w c : K) (hw : 0 < w) (a m : ℕ) (hm : 0 < m) :
    (((List.range' a m).map (mid n w c)).max?).map (fun top =>
      ((List.range' a m).map (mid n w c)).map (· - w / 2) ++ [top + w / 2]) =
      some (edges m w (blockCenter n w c a m)) := by
  obtain ⟨k, rfl⟩ : ∃ k, m = k + 1 := ⟨m - 1, by omega⟩
  have hmax : ((List.range' a (k + 1)).map (mid n w c)).max? = some (mid n w c (a + k)) := by
    rw [map_range'_eq]
    apply max?_map_range k (fun j => mid n w c (a + j))
    intro i j h
    rcases h.lt_or_eq with h | h
    · exact (mid_mono hw (by omega)).le
    · rw [h]
  rw [hmax]
  simp only [Option.map_some]
  rw [← edge_block, List.range'_concat (s := a) (n := k + 1), List.map_append, List.map_map]
  congr 2
  · refine List.map_congr_left (fun j _ => ?_)
    simp only [Function.comp_apply, mid, edge]
    ring
  · simp only [List.map_cons, List.map_nil, mid, edge]
    congr 1
    push_cast; ring

theorem drop_take_block {α : Type} (f : ℕ → α) (n a m : ℕ) (h : a + m ≤ n) :
    (((List.range n).map f).drop a).take m = (List.range' a m).map f := by
  apply List.ext_getElem?
  intro j
  by_cases hj : j < m
  · simp [hj, List.getElem?_range (show a + j < n by omega)]
  · rw [List.getElem?_eq_none (by simp; omega), List.getElem?_eq_none (by simp; omega)]


/-- The object after the lines 388-391 of `crop`. -/
def cropStart (g : Grid K V) (ax a m : ℕ) (cs : List K) : Grid K V :=
  { g with grid := g.grid.map (fun x : Arr V => x.take (List.range' a m) ax),
           centers := g.centers.set ax cs }

/-- The object after the lines 388-396. -/
def cropMost (g : Grid K V) (ax a m : ℕ) (w C : K) : Grid K V :=
  { g with
    grid := g.grid.map (fun x : Arr V => x.take (List.range' a m) ax),
    centers := g.centers.set ax (middles m w C), axes := g.axes.set ax (edges m w C),
    nPix := g.nPix.set ax m, side := g.side.put ax (m * w), center := g.center.put ax C,
    fcenters := g.fcenters.set ax (freqs m w) }

/-- `crop` of an axis in real space, case by case. -/
theorem crop_cases (g : Grid K V) (hg : Regular g) (hfl : Floats g) (ax n : ℕ) (w c : K)
    (hw : 0 < w) (ha : AxisIs g ax n w c) (hf : g.fourier[ax]? = some false)
    (min max : Option K) :
    ∃ lo hi a m, a + m ≤ n ∧
      (∀ l, min = some l → l = lo) ∧ (∀ h, max = some h → h = hi) ∧
      (min = none → lo = edge n w c 0) ∧ (max = none → hi = edge n w c n) ∧
      (∀ j < n, ((a ≤ j ∧ j < a + m) ↔ Inside min max (mid n w c j))) ∧
      g.crop ax min max =
        if hi ≤ lo then (g, .error .valueError)
        else if (∀ j < n, mid n w c j > hi) ∨ (∀ j < n, mid n w c j < lo) then
          (g, .error .valueError)
        else if m = 0 then (cropStart g ax a m [], .error .valueError)
        else if m = 1 then
          (cropMost g ax a m w (blockCenter n w c a m), .error .indexError)
        else
          ({ cropMost g ax a m w (blockCenter n w c a m) with
              faxes := g.faxes.set ax (fedges m w) }, .ok ()) := by
  obtain ⟨lo, hi, l1, l2, l3, l4, l5, l6, l7⟩ := limits n w c hw min max
  obtain ⟨a, m, k1, k2, k3, k4⟩ := kept n w c hw lo hi
  refine ⟨lo, hi, a, m, k1, l3, l4, l5, l6, fun j hj => (k4 j hj).trans (l7 j hj), ?_⟩
  have hax : ax < g.dim := (List.getElem?_eq_some_iff.1 ha.center).1
  unfold Grid.crop
  simp only [hf, ha.axes, ha.centers, ha.pix]
  simp only [Bool.false_eq_true, if_false, l1, l2]
  have hall1 : (∀ x ∈ middles n w c, x > hi) ↔ ∀ j < n, mid n w c j > hi := by
    rw [middles_eq]; simp
  have hall2 : (∀ x ∈ middles n w c, x < lo) ↔ ∀ j < n, mid n w c j < lo := by
    rw [middles_eq]; simp
  have h12 := or_congr hall1 hall2
  rw [k2, k3]
  by_cases h1 : hi ≤ lo
  · rw [if_pos h1, if_pos h1]
  rw [if_neg h1, if_neg h1]
  by_cases h2 : (∀ j < n, mid n w c j > hi) ∨ (∀ j < n, mid n w c j < lo)
  · rw [if_pos (h12.2 h2), if_pos h2]
  rw [if_neg (fun q => h2 (h12.1 q)), if_neg h2]
  by_cases h3 : m = 0
  · subst h3
    simp [cropStart]
  rw [if_neg h3]
  have he := crop_edges n w c hw a m (by omega)
  cases hmax : ((List.range' a m).map (mid n w c)).max? with
  | none => rw [hmax] at he; cases he
  | some top =>
    rw [hmax] at he
    simp only [Option.map_some, Option.some.injEq] at he
    simp only [he]
    set C := blockCenter n w c a m with hC
    have e1 : (edges m w C).max? = some (edge m w C m) :=
      max?_map_range m (edge m w C) (fun i j h => edge_mono hw h)
    have e2 : (edges m w C).min? = some (edge m w C 0) :=
      min?_map_range m (edge m w C) (fun i j h => edge_mono hw h)
    have e3 : edge m w C m - edge m w C 0 = m * w := by unfold edge; push_cast; ring
    have e4 : (g.side.put ax ((m : K) * w)).vals.getD ax 0 = m * w := by
      simp [NArr.put, hfl.2.1, List.getD_eq_getElem?_getD, hg.side, hax]
    have e5 : edge m w C 0 + (m : K) * w / 2 = C := by unfold edge; push_cast; ring
    have e6 : (middles m w C).length = m := by simp [middles]
    simp only [e1, e2, e3, e4, e5, fcentersOf_eq, mid_block, ← hC, e6]
    by_cases h4 : m = 1
    · rw [if_pos h4, axisEdges_short m w (by omega)]
      rfl
    · rw [if_neg h4, axisEdges_freqs m w (by omega)]
      rfl

/-- The axes of a grid after a successful `crop`. -/
theorem cropMost_axes (g : Grid K V) (hg : Regular g) (hfl : Floats g) (ax a m : ℕ) (w C : K)
    (hax : ax < g.dim) (hpix : g.pix.vals[ax]? = some w) :
    AxisIs ({ cropMost g ax a m w C with faxes := g.faxes.set ax (fedges m w) } : Grid K V) ax m w C ∧
    ∀ i, i ≠ ax → ∀ n w' c, AxisIs g i n w' c →
      AxisIs ({ cropMost g ax a m w C with faxes := g.faxes.set ax (fedges m w) } : Grid K V) i n w' c := by
  have hax' : ax < g.center.vals.length := hax
  constructor
  · constructor <;> simp [cropMost, NArr.put, hfl.1, hfl.2.1, hpix, hg.nPix, hg.side, hg.axes,
      hg.centers, hg.fcenters, hg.faxes, hax, hax']
  · intro i hi n w' c q
    have hi' : ax ≠ i := fun e => hi e.symm
    constructor <;> simp [cropMost, NArr.put, hi', q.nPix, q.pix, q.center, q.side, q.axes,
      q.centers, q.fcenters, q.faxes]

/-- A successful `crop` does what it should. -/
theorem cropMost_cropped (g : Grid K V) (hg : Regular g) (hfl : Floats g) (ax n a m : ℕ) (w c : K)
    (hw : 0 < w) (ha : AxisIs g ax n w c) (ham : a + m ≤ n) (hm : 2 ≤ m) :
    Cropped g ({ cropMost g ax a m w (blockCenter n w c a m) with
        faxes := g.faxes.set ax (fedges m w) } : Grid K V) ax a m ∧
      Floats ({ cropMost g ax a m w (blockCenter n w c a m) with
        faxes := g.faxes.set ax (fedges m w) } : Grid K V) := by
  have hax : ax < g.dim := (List.getElem?_eq_some_iff.1 ha.center).1
  set C := blockCenter n w c a m with hC
  obtain ⟨x1, x2⟩ := cropMost_axes g hg hfl ax a m w C hax ha.pix
  set g' : Grid K V := { cropMost g ax a m w C with faxes := g.faxes.set ax (fedges m w) } with hg'
  have hdim : g'.dim = g.dim := by simp [hg', Grid.dim, cropMost, NArr.put]
  have hsh : ∀ x, g.grid = some x → (x.take (List.range' a m) ax).shape = g'.nPix ++ [g.nProps] := by
    intro x hx
    simp only [Arr.take, hg.data x hx, List.length_range', hg', cropMost]
    rw [List.set_append_left _ _ (by rw [hg.nPix]; exact hax)]
  refine ⟨⟨?_, rfl, rfl, ⟨rfl, rfl, rfl⟩, ⟨rfl, rfl⟩, hdim, rfl, rfl, ?_, ?_, x2, ?_, ?_⟩, ?_⟩
  · refine ⟨?_, ?_, ?_, ?_, ?_, ?_, ?_, ?_, ?_, ?_⟩
    · rw [hdim]; simp [hg', cropMost, hg.nPix]
    · rw [hdim]; simp [hg', cropMost, hg.pix]
    · rw [hdim]; simp [hg', cropMost, NArr.put, hg.side]
    · rw [hdim]; simp [hg', cropMost, hg.axes]
    · rw [hdim]; simp [hg', cropMost, hg.centers]
    · rw [hdim]; simp [hg', cropMost, hg.fcenters]
    · rw [hdim]; simp [hg', hg.faxes]
    · rw [hdim]; exact hg.fourier
    · intro i hi
      rw [hdim] at hi
      by_cases hix : i = ax
      · subst hix; exact ⟨m, w, C, hm, hw, x1⟩
      · obtain ⟨n', w', c', h1, h2, h3⟩ := hg.axis i hi
        exact ⟨n', w', c', h1, h2, x2 i hix n' w' c' h3⟩
    · intro y hy
      have hy' : g.grid.map (fun x : Arr V => x.take (List.range' a m) ax) = some y := hy
      cases hga : g.grid with
      | none => rw [hga] at hy'; cases hy'
      | some x =>
        rw [hga] at hy'
        simp only [Option.map_some, Option.some.injEq] at hy'
        subst hy'
        exact hsh x hga
  · show g.axes.set ax (edges m w C) = _
    rw [List.modify_eq_set_getElem?, ha.axes]
    simp only [Option.map_eq_map, Option.map_some, Option.getD_some]
    rw [edges_eq n, drop_take_block (edge n w c) (n + 1) a (m + 1) (by omega), edge_block]
  · show g.centers.set ax (middles m w C) = _
    rw [List.modify_eq_set_getElem?, ha.centers]
    simp only [Option.map_eq_map, Option.map_some, Option.getD_some]
    rw [middles_eq n, drop_take_block (mid n w c) n a m (by omega), mid_block]
  · intro h
    show g.grid.map _ = none
    rw [h]; rfl
  · intro x hx
    refine ⟨x.take (List.range' a m) ax, ?_, ?_⟩
    · show g.grid.map _ = _
      rw [hx]; rfl
    · intro i p hi hp
      unfold cell
      simp only [Arr.take]
      have hil : i.length = g.dim := by
        rw [hi.length]; simp [hg', cropMost, hg.nPix]
      have hk : i[ax]? = some (i[ax]'(by omega)) := List.getElem?_eq_getElem (by omega)
      have hlt : i[ax]'(by omega) < m := by
        have hnp : g'.nPix[ax]? = some m := x1.nPix
        exact (valid_iff.1 hi).2 ax m _ hnp hk
      have e1 : (i ++ [p]).getD ax 0 = i[ax]'(by omega) := by
        rw [List.getD_eq_getElem?_getD, List.getElem?_append_left (by omega), hk]; rfl
      have e2 : (List.range' a m).getD (i[ax]'(by omega)) 0 = a + i[ax]'(by omega) := by
        rw [List.getD_eq_getElem?_getD]; simp [hlt]
      rw [e1, e2, List.set_append_left _ _ (by omega), List.modify_eq_set_getElem?, hk]
      rfl
  · refine ⟨?_, ?_, hfl.2.2⟩
    · simp [hg', cropMost, NArr.put, hfl.1]
    · simp [hg', cropMost, NArr.put, hfl.2.1]

end Verif.Map
