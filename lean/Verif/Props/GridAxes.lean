import Verif.Props.GridMake
import Mathlib.Algebra.Order.Archimedean.Basic
import Mathlib.Algebra.Order.Round

/-!
# C98: grids from given axes
-/

set_option linter.unusedSectionVars false

namespace Verif.Map

open Verif.Sim (Err)
open Spec

variable {K V : Type} [Field K] [LinearOrder K] [IsStrictOrderedRing K] [FloorRing K]

/-! ## Equally spaced edges, exact numbers -/

theorem steps_get (n : ℕ) (a w : K) (j : ℕ) (h : j ≤ n) : (steps n a w)[j]? = some (a + j * w) := by
  simp [steps, List.getElem?_range (show j < n + 1 by omega)]

theorem steps_length (n : ℕ) (a w : K) : (steps n a w).length = n + 1 := by simp [steps]

theorem diff_mem (ax : List K) (s : K) (h : s ∈ diff ax) :
    ∃ (j : ℕ) (x y : K), ax[j]? = some x ∧ ax[j + 1]? = some y ∧ s = y - x := by
  unfold diff at h
  obtain ⟨j, hj⟩ := List.getElem?_of_mem h
  rw [List.getElem?_zipWith] at hj
  rcases h1 : ax.tail[j]? with _ | y
  · rw [h1] at hj; simp at hj
  rcases h2 : ax[j]? with _ | x
  · rw [h1, h2] at hj; simp at hj
  rw [h1, h2] at hj
  simp only [Option.some.injEq] at hj
  exact ⟨j, x, y, h2, by rw [← List.getElem?_tail]; exact h1, hj.symm⟩

theorem steps_diff (n : ℕ) (a w : K) : ∀ s ∈ diff (steps n a w), s = w := by
  intro s hs
  obtain ⟨j, x, y, h1, h2, rfl⟩ := diff_mem _ _ hs
  have hj : j + 1 ≤ n := by
    have := (List.getElem?_eq_some_iff.1 h2).1
    rw [steps_length] at this; omega
  rw [steps_get n a w j (by omega)] at h1
  rw [steps_get n a w (j + 1) hj] at h2
  simp only [Option.some.injEq] at h1 h2
  rw [← h1, ← h2]; push_cast; ring

theorem plan_steps (n : ℕ) (a w : K) (hn : 1 ≤ n) :
    axisPlan id (steps n a w) = .ok (a + n * w / 2, n * w, w) := by
  unfold axisPlan
  have h1 : (steps n a w).head? = some a := by
    rw [List.head?_eq_getElem?, steps_get n a w 0 (by omega)]; simp
  have h2 : (steps n a w).getLast? = some (a + n * w) := by
    rw [List.getLast?_eq_getElem?, steps_length, Nat.add_sub_cancel, steps_get n a w n (le_refl _)]
  have hd : (diff (steps n a w)).headD 0 = w := by
    have hl : diff (steps n a w) ≠ [] := by
      intro h
      have := congrArg List.length h
      unfold diff at this
      simp [steps_length] at this
      omega
    rcases h : diff (steps n a w) with _ | ⟨x, l⟩
    · exact absurd h hl
    · exact steps_diff n a w x (by rw [h]; simp)
  have h3 : (diff (steps n a w)).all (fun s => isclose s ((diff (steps n a w)).headD 0)) = true := by
    rw [List.all_eq_true]
    intro s hs
    rw [steps_diff n a w s hs, hd]
    simp only [isclose, sub_self, abs_zero, decide_eq_true_eq]
    positivity
  have h0 : (n : K) ≠ 0 := by
    have : 0 < n := hn
    exact_mod_cast this.ne'
  simp only [h1, h2, h3, if_true, id, steps_length, Nat.add_sub_cancel]
  have e1 : (a + n * w + a) / 2 = a + n * w / 2 := by ring
  have e2 : a + n * w - a = n * w := by ring
  have e3 : (n : K) * w / n = w := by field_simp
  rw [e1, e2, e3]

theorem pixelCount_whole (n : ℕ) (w : K) (hn : 2 ≤ n) (hw : w ≠ 0) : pixelCount (n * w) w = .ok n := by
  unfold pixelCount
  rw [if_neg hw]
  have e : (n : K) * w / w = n := by field_simp
  have hc : ⌈round1 ((n : K) * w / w)⌉ = n := by
    rw [ceil_round1, e, Int.ceil_eq_iff]
    push_cast
    constructor <;> linarith
  simp only [hc]
  rw [if_neg (by omega), if_neg (by omega)]
  simp

theorem axisEdges_total (ax : List K) (h : 2 ≤ ax.length) : ∃ e, axisEdges ax = .ok e := by
  unfold axisEdges
  have hd : List.zipWith (fun b a => b - a) ax.tail ax ≠ [] := by
    intro e
    have := congrArg List.length e
    simp at this
    omega
  have hx : ax ≠ [] := by rintro rfl; simp at h
  simp only [List.head?_eq_some_head hx, List.getLast?_eq_some_getLast hx, List.head?_eq_some_head hd,
    List.getLast?_eq_some_getLast hd]
  exact ⟨_, rfl⟩

theorem geo_get_axes (q : List (ℕ × K × K)) (i : ℕ) (t : ℕ × K × K) (ht : q[i]? = some t) :
    ((q.map (·.1)).zip ((q.map (·.2.2)).zip ((q.map (fun t => (t.1 : K) * t.2.2)).zip
      (q.map (fun t => t.2.1 + (t.1 : K) * t.2.2 / 2)))))[i]? =
      some (t.1, t.2.2, (t.1 : K) * t.2.2, t.2.1 + t.1 * t.2.2 / 2) := by
  simp only [List.zip, List.getElem?_zipWith, List.getElem?_map, ht, Option.map_some]

/-- `Grid(..)` with side lengths of whole numbers of pixels, which may be negative. -/
theorem new_whole (m : ℕ) (q : List (ℕ × K × K)) (ints : Bool) (au gu : Option (List (Option String)))
    (hq : ∀ t ∈ q, 2 ≤ t.1 ∧ t.2.2 ≠ 0)
    (hau : ∀ l, au = some l → l.length = q.length) (hgu : ∀ l, gu = some l → l.length = m) :
    ∃ g : Grid K V, Grid.new m ⟨false, q.map (fun t => t.2.1 + (t.1 : K) * t.2.2 / 2)⟩
        ⟨ints, q.map (fun t => (t.1 : K) * t.2.2)⟩ ⟨false, q.map (·.2.2)⟩ au gu = .ok g ∧
      g.nPix = q.map (·.1) ∧ g.axes = q.map (fun t => steps t.1 t.2.1 t.2.2) ∧
      g.centers = q.map (fun t => (List.range t.1).map (fun j : ℕ => t.2.1 + ((j : K) + 1 / 2) * t.2.2)) ∧
      g.side.vals = q.map (fun t => (t.1 : K) * t.2.2) ∧ g.pix = ⟨false, q.map (·.2.2)⟩ ∧
      g.nProps = m ∧ g.grid = none ∧ g.nObj = 0 ∧ (∀ f ∈ g.fourier, f = false) ∧
      (∀ l, au = some l → g.axunits = l) ∧ (∀ l, gu = some l → g.gridunits = l) := by
  obtain ⟨S, hS, hSv⟩ := spreadSide_full (⟨ints, q.map (fun t => (t.1 : K) * t.2.2)⟩ : NArr K) q.length (by simp)
  obtain ⟨au', ha1, ha2⟩ := spreadUnits_given au _ hau
  obtain ⟨gu', hg1, hg2⟩ := spreadUnits_given gu _ hgu
  have hP : spreadPix (⟨false, q.map (·.2.2)⟩ : NArr K) q.length = .ok ⟨false, q.map (·.2.2)⟩ := by
    simp [spreadPix]
  have hns : mapE (fun p : K × K => pixelCount p.1 p.2)
      ((q.map (fun t => (t.1 : K) * t.2.2)).zip (q.map (·.2.2))) = .ok (q.map (·.1)) := by
    rw [mapE_ok_iff]
    refine ⟨by simp, ?_⟩
    intro i x hx
    rw [List.getElem?_zip_eq_some, List.getElem?_map, List.getElem?_map] at hx
    rcases ht : q[i]? with _ | t
    · rw [ht] at hx; simp at hx
    rw [ht] at hx
    simp only [Option.map_some, Option.some.injEq] at hx
    refine ⟨t.1, by simp [ht], ?_⟩
    rw [← hx.1, ← hx.2]
    exact pixelCount_whole t.1 t.2.2 (hq t (List.mem_of_getElem? ht)).1 (hq t (List.mem_of_getElem? ht)).2
  obtain ⟨fe, hfe⟩ : ∃ fe, mapE axisEdges (((q.map (·.1)).zip (q.map (·.2.2))).map
      (fun r : ℕ × K => fcentersOf r.1 r.2)) = .ok fe := by
    apply mapE_total
    intro ax hax
    obtain ⟨r, hr, rfl⟩ := List.mem_map.1 hax
    apply axisEdges_total
    obtain ⟨t, ht, e⟩ := List.mem_map.1 (List.of_mem_zip hr).1
    rw [← e]
    have := (hq t ht).1
    simpa [fcentersOf, fftshift, fftfreq] using this
  have hquot : List.zipWith (· / ·) (q.map (fun t => (t.1 : K) * t.2.2)) (q.map (·.2.2)) =
      (q.map (·.1)).map (fun n : ℕ => (n : K)) := by
    apply List.ext_getElem?
    intro i
    rw [List.getElem?_zipWith]
    simp only [List.getElem?_map]
    rcases ht : q[i]? with _ | t
    · simp
    · have := (hq t (List.mem_of_getElem? ht)).2
      simp only [Option.map_some]
      congr 1
      field_simp
  unfold Grid.new
  simp only [List.length_map, hS, hP, ha1, hg1, hSv, hns, hquot, if_true, hfe]
  refine ⟨_, rfl, rfl, ?_, ?_, hSv, rfl, rfl, rfl, rfl, ?_, ?_, ?_⟩
  · apply List.ext_getElem?
    intro i
    simp only [List.getElem?_map]
    rcases ht : q[i]? with _ | t
    · rw [List.getElem?_eq_none (by
        have := List.getElem?_eq_none_iff.1 ht
        simp; omega)]
      simp
    · rw [geo_get_axes q i t ht]
      simp only [Option.map_some, Option.some.injEq]
      unfold edgesOf steps
      apply List.map_congr_left
      intro j _
      ring
  · apply List.ext_getElem?
    intro i
    rw [List.getElem?_zipWith]
    simp only [List.getElem?_map]
    rcases ht : q[i]? with _ | t
    · simp
    · rw [geo_get_axes q i t ht]
      simp only [Option.map_some, Option.some.injEq]
      unfold centersOf edgesOf
      rw [List.range_succ, List.map_append, List.map_singleton, List.dropLast_concat, List.map_map]
      apply List.map_congr_left
      intro j _
      simp only [Function.comp]
      ring
  · intro f hf; exact (List.mem_replicate.1 hf).2
  · intro l hl; rw [ha2 l hl]
  · intro l hl; rw [hg2 l hl]

/-- The axes of a list of numbers of cells, first edges and steps. -/
def axesOf (ints : Bool) (q : List (ℕ × K × K)) : List (NArr K) :=
  q.map (fun t => ⟨ints, steps t.1 t.2.1 t.2.2⟩)

theorem refit_whole (q : List (ℕ × K × K)) (hq : ∀ t ∈ q, 2 ≤ t.1 ∧ t.2.2 ≠ 0) :
    refitSide id (q.map (fun t => (t.1 : K) * t.2.2)) (q.map (·.2.2)) (q.map (·.1)) =
      q.map (fun t => (t.1 : K) * t.2.2) := by
  unfold refitSide
  rw [if_pos]
  apply List.ext_getElem?
  intro i
  rw [List.getElem?_zipWith]
  simp only [List.getElem?_map]
  rcases ht : q[i]? with _ | t
  · simp
  · have := (hq t (List.mem_of_getElem? ht)).2
    simp only [Option.map_some, id]
    congr 1
    field_simp

theorem axes_new (q : List (ℕ × K × K)) (ints : Bool) (m : ℕ) (au gu : Option (List (Option String)))
    (hq : ∀ t ∈ q, 2 ≤ t.1 ∧ t.2.2 ≠ 0)
    (hau : ∀ l, au = some l → l.length = q.length) (hgu : ∀ l, gu = some l → l.length = m) :
    ∃ g : Grid K V, gridFromAxes id (axesOf ints q) m au gu = .ok g ∧
      Grid.new m ⟨false, q.map (fun t => t.2.1 + (t.1 : K) * t.2.2 / 2)⟩
        ⟨(axesOf ints q).all (fun a => a.isInt), q.map (fun t => (t.1 : K) * t.2.2)⟩
        ⟨false, q.map (·.2.2)⟩ au gu = .ok g ∧
      g.axes = (axesOf ints q).map (·.vals) ∧ g.nPix = q.map (·.1) ∧
      g.centers = q.map (fun t => (List.range t.1).map (fun j : ℕ => t.2.1 + ((j : K) + 1 / 2) * t.2.2)) ∧
      g.side.vals = q.map (fun t => (t.1 : K) * t.2.2) ∧ g.pix.vals = q.map (·.2.2) ∧
      g.nProps = m ∧ g.grid = none ∧ g.nObj = 0 ∧ (∀ f ∈ g.fourier, f = false) ∧
      (∀ l, au = some l → g.axunits = l) ∧ (∀ l, gu = some l → g.gridunits = l) := by
  have hplan : mapE (fun a : NArr K => axisPlan id a.vals) (axesOf ints q) =
      .ok (q.map (fun t => (t.2.1 + t.1 * t.2.2 / 2, (t.1 : K) * t.2.2, t.2.2))) := by
    rw [mapE_ok_iff]
    refine ⟨by simp [axesOf], ?_⟩
    intro i a ha
    unfold axesOf at ha
    rw [List.getElem?_map] at ha
    rcases ht : q[i]? with _ | t
    · rw [ht] at ha; simp at ha
    rw [ht] at ha
    simp only [Option.map_some, Option.some.injEq] at ha
    subst ha
    refine ⟨_, by rw [List.getElem?_map, ht]; rfl, ?_⟩
    exact plan_steps t.1 t.2.1 t.2.2 (by have := (hq t (List.mem_of_getElem? ht)).1; omega)
  obtain ⟨g, h1, h2, h3, h4, h5, h6, h7, h8, h9, h10, h11, h12⟩ :=
    new_whole (V := V) m q ((axesOf ints q).all (fun a => a.isInt)) au gu hq hau hgu
  have hn : List.zipWith (fun s w => (⌈id (s / w)⌉).toNat) (q.map (fun t => (t.1 : K) * t.2.2))
      (q.map (·.2.2)) = q.map (·.1) := by
    apply List.ext_getElem?
    intro i
    rw [List.getElem?_zipWith]
    simp only [List.getElem?_map]
    rcases ht : q[i]? with _ | t
    · simp
    · have := (hq t (List.mem_of_getElem? ht)).2
      simp only [Option.map_some, id]
      congr 1
      have e : (t.1 : K) * t.2.2 / t.2.2 = t.1 := by field_simp
      rw [e]
      simp
  refine ⟨g, ?_, h1, ?_, h2, h4, h5, by rw [h6], h7, h8, h9, h10, h11, h12⟩
  · unfold gridFromAxes
    simp only [hplan, List.map_map, Function.comp_def, h1]
    have e6 : g.pix.vals = q.map (·.2.2) := by rw [h6]
    rw [e6, h2, refit_whole q hq, hn, refit_whole q hq, ← h5, ← h2]
  · rw [h3]
    simp only [axesOf, List.map_map, Function.comp_def]

/-- **C98**, exact numbers: a grid made from equally spaced axes of at least two cells, upwards or
downwards, has exactly these edges; the cell centres are half-way between them. -/
theorem C98_axes_partial (q : List (ℕ × K × K)) (ints : Bool) (m : ℕ) (au gu : Option (List (Option String)))
    (hq : ∀ t ∈ q, 2 ≤ t.1 ∧ t.2.2 ≠ 0)
    (hau : ∀ l, au = some l → l.length = q.length) (hgu : ∀ l, gu = some l → l.length = m) :
    ∃ g : Grid K V, gridFromAxes id (axesOf ints q) m au gu = .ok g ∧
      g.axes = (axesOf ints q).map (·.vals) ∧ g.nPix = q.map (·.1) ∧
      g.centers = q.map (fun t => (List.range t.1).map (fun j : ℕ => t.2.1 + ((j : K) + 1 / 2) * t.2.2)) ∧
      g.side.vals = q.map (fun t => (t.1 : K) * t.2.2) ∧ g.pix.vals = q.map (·.2.2) ∧
      g.nProps = m ∧ g.grid = none ∧ g.nObj = 0 ∧ (∀ f ∈ g.fourier, f = false) ∧
      (∀ l, au = some l → g.axunits = l) ∧ (∀ l, gu = some l → g.gridunits = l) := by
  obtain ⟨g, h1, -, h⟩ := axes_new (V := V) q ints m au gu hq hau hgu
  exact ⟨g, h1, h⟩

/-- With steps upwards the grid is regular, so that everything about adding objects, padding, cropping
and transforming (C18 to C28) applies. -/
theorem C98_regular_partial (q : List (ℕ × K × K)) (ints : Bool) (m : ℕ)
    (hq : ∀ t ∈ q, 2 ≤ t.1 ∧ 0 < t.2.2) :
    ∃ g : Grid K V, gridFromAxes id (axesOf ints q) m = .ok g ∧ Regular g := by
  obtain ⟨g, h1, h2, -⟩ := axes_new (V := V) q ints m none none
    (fun t ht => ⟨(hq t ht).1, (hq t ht).2.ne'⟩) (by simp) (by simp)
  refine ⟨g, h1, ?_⟩
  obtain ⟨g', h3, h4, -⟩ := new_fit (V := V) m ⟨false, q.map (fun t => t.2.1 + (t.1 : K) * t.2.2 / 2)⟩
    ⟨(axesOf ints q).all (fun a => a.isInt), q.map (fun t => (t.1 : K) * t.2.2)⟩
    ⟨false, q.map (·.2.2)⟩ none none (by simp) (by simp) (by simp) (by simp)
    (by
      intro w hw
      obtain ⟨t, ht, rfl⟩ := List.mem_map.1 hw
      exact (hq t ht).2)
    (by
      intro i s w hs hw
      simp only [List.getElem?_map] at hs hw
      rcases ht : q[i]? with _ | t
      · rw [ht] at hs; simp at hs
      rw [ht] at hs hw
      simp only [Option.map_some, Option.some.injEq] at hs hw
      have := hq t (List.mem_of_getElem? ht)
      have h2 : (2 : K) ≤ t.1 := by exact_mod_cast this.1
      rw [← hs, ← hw]
      nlinarith [this.2])
  rw [h2] at h3
  simp only [Except.ok.injEq] at h3
  rwa [h3]

/-! ## What is refused -/

theorem mapE_error {ε α β : Type} {f : α → Except ε β} {xs : List α} {e : ε} (h : mapE f xs = .error e) :
    ∃ x ∈ xs, f x = .error e := by
  induction xs with
  | nil => cases h
  | cons x xs ih =>
    simp only [mapE] at h
    rcases hx : f x with e' | y
    · rw [hx] at h
      simp only [Except.error.injEq] at h
      exact ⟨x, by simp, by rw [hx, h]⟩
    · rw [hx] at h
      simp only at h
      rcases hr : mapE f xs with e' | ys
      · rw [hr] at h
        simp only [Except.error.injEq] at h
        obtain ⟨z, hz, hz'⟩ := ih (by rw [hr, h])
        exact ⟨z, by simp [hz], hz'⟩
      · rw [hr] at h; cases h

theorem mapE_at {ε α β : Type} {f : α → Except ε β} {xs : List α} {ys : List β} (h : mapE f xs = .ok ys)
    {i : ℕ} {x : α} (hx : xs[i]? = some x) : ∃ y, ys[i]? = some y ∧ f x = .ok y :=
  ((mapE_ok_iff f xs ys).1 h).2 i x hx

theorem plan_length (rd : K → K) (axes : List (NArr K)) (plan : List (K × K × K))
    (h : mapE (fun a : NArr K => axisPlan rd a.vals) axes = .ok plan) : plan.length = axes.length :=
  mapE_length h

/-- **C98**: an axis whose steps are not all close to the first one is refused. -/
theorem C98_uneven_refused (rd : K → K) (axes : List (NArr K)) (m : ℕ)
    (au gu : Option (List (Option String))) (hne : ∀ a ∈ axes, a.vals ≠ [])
    (h : ∃ a ∈ axes, ∃ s ∈ diff a.vals, ∃ s0, (diff a.vals).head? = some s0 ∧
      1 / 10 ^ 8 + 1 / 10 ^ 5 * |s0| < |s - s0|) :
    (gridFromAxes rd axes m au gu : Except Err (Grid K V)) = .error .valueError := by
  unfold gridFromAxes
  rcases hp : mapE (fun a : NArr K => axisPlan rd a.vals) axes with e | plan
  · obtain ⟨a, ha, he⟩ := mapE_error hp
    simp only [axisPlan, List.head?_eq_some_head (hne a ha), List.getLast?_eq_some_getLast (hne a ha)] at he
    split at he
    · cases he
    · simp only [Except.error.injEq] at he
      rw [he]
  · exfalso
    obtain ⟨a, ha, s, hs, s0, h0, hlt⟩ := h
    obtain ⟨y, -, hy⟩ := mapE_mem' hp a ha
    simp only [axisPlan, List.head?_eq_some_head (hne a ha), List.getLast?_eq_some_getLast (hne a ha)] at hy
    split at hy
    · rename_i hall
      rw [List.all_eq_true] at hall
      have := hall s hs
      simp only [isclose, List.headD_eq_head?_getD, h0, Option.getD_some, decide_eq_true_eq] at this
      linarith
    · cases hy

/-- What is known about a grid that was made. -/
theorem gridFromAxes_ok (rd : K → K) (axes : List (NArr K)) (m : ℕ)
    (au gu : Option (List (Option String))) (g : Grid K V)
    (h : gridFromAxes rd axes m au gu = .ok g) :
    ∃ (plan : List (K × K × K)) (g0 : Grid K V),
      mapE (fun a : NArr K => axisPlan rd a.vals) axes = .ok plan ∧
      Grid.new m ⟨false, plan.map (·.1)⟩ ⟨axes.all (fun a => a.isInt), plan.map (·.2.1)⟩
        ⟨false, plan.map (·.2.2)⟩ au gu = .ok g0 ∧ g.nProps = g0.nProps ∧ g.axes = g0.axes ∧
      g.centers = g0.centers ∧
      g.nPix = List.zipWith (fun s w => (⌈rd (s / w)⌉).toNat)
        (refitSide rd (plan.map (·.2.1)) (plan.map (·.2.2)) g0.nPix) g0.pix.vals := by
  unfold gridFromAxes at h
  rcases hp : mapE (fun a : NArr K => axisPlan rd a.vals) axes with e | plan
  · rw [hp] at h; cases h
  rw [hp] at h
  simp only at h
  rcases hg : (Grid.new m ⟨false, plan.map (·.1)⟩ ⟨axes.all (fun a => a.isInt), plan.map (·.2.1)⟩
        ⟨false, plan.map (·.2.2)⟩ au gu : Except Err (Grid K V)) with e | g0
  · rw [hg] at h; cases h
  rw [hg] at h
  simp only [Except.ok.injEq] at h
  subst h
  exact ⟨plan, g0, rfl, hg, rfl, rfl, rfl, rfl⟩

/-- What is known about a `Grid(..)` that was made. -/
theorem new_facts (m : ℕ) (ints : Bool) (cs ss ws : List K) (au gu : Option (List (Option String)))
    (g : Grid K V) (hs : ss.length = cs.length) (hw : ws.length = cs.length)
    (h : Grid.new m ⟨false, cs⟩ ⟨ints, ss⟩ ⟨false, ws⟩ au gu = .ok g) :
    mapE (fun p : K × K => pixelCount p.1 p.2) (ss.zip ws) = .ok g.nPix ∧ g.pix.vals = ws ∧
    g.nProps = m ∧
    (∃ fe, mapE axisEdges ((g.nPix.zip ws).map (fun r : ℕ × K => fcentersOf r.1 r.2)) = .ok fe) ∧
    ∃ S : List K, g.axes = (g.nPix.zip (ws.zip (S.zip cs))).map
      (fun q => edgesOf q.1 q.2.1 q.2.2.1 q.2.2.2) ∧
      (List.zipWith (· / ·) ss ws = g.nPix.map (fun n : ℕ => (n : K)) → S = ss) ∧
      g.centers = List.zipWith centersOf g.axes ws := by
  obtain ⟨S, hS, hSv⟩ := spreadSide_full (⟨ints, ss⟩ : NArr K) cs.length hs
  have hP : spreadPix (⟨false, ws⟩ : NArr K) cs.length = .ok ⟨false, ws⟩ := by
    simp [spreadPix, hw]
  unfold Grid.new at h
  simp only [hS, hP] at h
  rcases h1 : spreadUnits au cs.length with e | au'
  · rw [h1] at h; cases h
  rcases h2 : spreadUnits gu m with e | gu'
  · rw [h1, h2] at h; cases h
  rw [h1, h2] at h
  simp only [hSv] at h
  rcases h3 : mapE (fun p : K × K => pixelCount p.1 p.2) (ss.zip ws) with e | ns
  · rw [h3] at h; cases h
  rw [h3] at h
  simp only at h
  rcases h4 : mapE axisEdges ((ns.zip ws).map (fun r : ℕ × K => fcentersOf r.1 r.2)) with e | fe
  · rw [h4] at h; cases h
  rw [h4] at h
  simp only [Except.ok.injEq] at h
  subst h
  refine ⟨rfl, rfl, rfl, ⟨fe, h4⟩, _, rfl, ?_, rfl⟩
  intro hq
  rw [if_pos hq, hSv]

theorem plan_get (rd : K → K) (axes : List (NArr K)) (plan : List (K × K × K))
    (h : mapE (fun a : NArr K => axisPlan rd a.vals) axes = .ok plan) (i : ℕ) (a : NArr K)
    (ha : axes[i]? = some a) : ∃ t, plan[i]? = some t ∧ axisPlan rd a.vals = .ok t :=
  mapE_at h ha

/-- **C98**: a grid with a single cell along some axis cannot be made. -/
theorem C98_one_cell_fails (rd : K → K) (hrd : ∀ x, rd (rd x) = rd x) (axes : List (NArr K)) (m : ℕ)
    (au gu : Option (List (Option String))) (ints : Bool) (a b : K)
    (h : ⟨ints, [a, b]⟩ ∈ axes) (g : Grid K V) : gridFromAxes rd axes m au gu ≠ .ok g := by
  intro hg
  obtain ⟨plan, g0, hp, h0, -⟩ := gridFromAxes_ok rd axes m au gu g hg
  obtain ⟨hn, -, -, ⟨fe, hfe⟩, -⟩ := new_facts m _ _ _ _ au gu g0 (by simp) (by simp) h0
  obtain ⟨i, hi⟩ := List.getElem?_of_mem h
  obtain ⟨t, ht, hat⟩ := plan_get rd axes plan hp i _ hi
  have hpl : axisPlan rd [a, b] = .ok (rd (rd (b + a) / 2), rd (b - a), rd (b - a)) := by
    have h3 : isclose (b - a) (b - a) = true := by
      simp only [isclose, sub_self, abs_zero, decide_eq_true_eq]; positivity
    simp [axisPlan, diff, h3, hrd]
  rw [hpl] at hat
  simp only [Except.ok.injEq] at hat
  subst hat
  obtain ⟨n, hni, hpc⟩ := mapE_at hn (show (((plan.map (·.2.1)).zip (plan.map (·.2.2)))[i]? =
      some (rd (b - a), rd (b - a))) by simp [List.getElem?_zip_eq_some, ht])
  have hn1 : n = 1 := by
    simp only [pixelCount] at hpc
    split at hpc
    · cases hpc
    · rename_i hne
      rw [ceil_round1, div_self hne] at hpc
      have hc : ⌈(1 : K) - 1 / 20⌉ = 1 := by
        rw [Int.ceil_eq_iff]; push_cast; constructor <;> norm_num
      rw [hc] at hpc
      simp at hpc
  subst hn1
  have hz : ((g0.nPix.zip (plan.map (·.2.2))).map (fun r : ℕ × K => fcentersOf r.1 r.2))[i]? =
      some (fcentersOf 1 (rd (b - a))) := by
    simp [List.getElem?_map, List.zip, List.getElem?_zipWith, hni, ht]
  obtain ⟨e, -, he⟩ := mapE_at hfe hz
  have : (fcentersOf 1 (rd (b - a)) : List K).length = 1 := by simp [fcentersOf, fftshift, fftfreq]
  obtain ⟨x, hx⟩ := List.length_eq_one_iff.1 this
  rw [hx] at he
  simp [axisEdges] at he

/-- **C98**: so does an axis given by a single number. -/
theorem C98_one_edge_fails (rd : K → K) (hrd : rd 0 = 0) (axes : List (NArr K)) (m : ℕ)
    (au gu : Option (List (Option String))) (ints : Bool) (a : K)
    (h : ⟨ints, [a]⟩ ∈ axes) (g : Grid K V) : gridFromAxes rd axes m au gu ≠ .ok g := by
  intro hg
  obtain ⟨plan, g0, hp, h0, -⟩ := gridFromAxes_ok rd axes m au gu g hg
  obtain ⟨hn, -⟩ := new_facts m _ _ _ _ au gu g0 (by simp) (by simp) h0
  obtain ⟨i, hi⟩ := List.getElem?_of_mem h
  obtain ⟨t, ht, hat⟩ := plan_get rd axes plan hp i _ hi
  have hpl : axisPlan rd [a] = .ok (rd (rd (a + a) / 2), 0, 0) := by
    simp [axisPlan, diff, hrd]
  rw [hpl] at hat
  simp only [Except.ok.injEq] at hat
  subst hat
  obtain ⟨n, hni, hpc⟩ := mapE_at hn (show (((plan.map (·.2.1)).zip (plan.map (·.2.2)))[i]? =
      some (0, 0)) by simp [List.getElem?_zip_eq_some, ht])
  simp [pixelCount] at hpc

/-! ## Tiny steps -/

/-- **C98**: the documented check for equal steps has no effect if all steps are at most 5e-9 (for example
wavelengths in metres): the edges are silently replaced by equally spaced ones. -/
theorem C98_tiny_steps (ax : List K) (n : ℕ) (a b : K) (hn : 2 ≤ n) (hl : ax.length = n + 1)
    (h0 : ax.head? = some a) (h1 : ax.getLast? = some b) (hab : a ≠ b)
    (ht : ∀ s ∈ diff ax, |s| ≤ 1 / 10 ^ 8 / 2) :
    ∃ g : Grid K V, gridFromAxes id [⟨false, ax⟩] 1 = .ok g ∧
      g.axes = [steps n a ((b - a) / n)] := by
  have hn0 : (n : K) ≠ 0 := by
    have : n ≠ 0 := by omega
    exact_mod_cast this
  have hw : (b - a) / n ≠ 0 := div_ne_zero (sub_ne_zero.2 (Ne.symm hab)) hn0
  have hplan : axisPlan id ax = axisPlan id (steps n a ((b - a) / n)) := by
    rw [plan_steps n a _ (by omega)]
    have h3 : (diff ax).all (fun s => isclose s ((diff ax).headD 0)) = true := by
      rw [List.all_eq_true]
      intro s hs
      have e0 : |(diff ax).headD 0| ≤ 1 / 10 ^ 8 / 2 := by
        rcases hd : diff ax with _ | ⟨x, l⟩
        · simp only [List.headD_nil, abs_zero]; positivity
        · exact ht x (by rw [hd]; simp)
      simp only [isclose, decide_eq_true_eq]
      have := abs_sub s ((diff ax).headD 0)
      have := ht s hs
      have : (0 : K) ≤ 1 / 10 ^ 5 * |(diff ax).headD 0| := by positivity
      linarith
    unfold axisPlan
    simp only [h0, h1, h3, if_true, id, hl, Nat.add_sub_cancel]
    have e2 : (n : K) * ((b - a) / n) = b - a := by field_simp
    rw [e2]
    congr 2
    ring
  obtain ⟨g, hg, h2, -⟩ := C98_axes_partial (V := V) [(n, a, (b - a) / n)] false 1 none none
    (by simp [hn, hw]) (by simp) (by simp)
  refine ⟨g, ?_, by rw [h2]; rfl⟩
  rw [← hg]
  unfold gridFromAxes axesOf
  simp only [List.map_cons, List.map_nil, mapE, hplan, List.all_cons]

/-! ## Functions -/

/-- **C98**, exact numbers: with a function of the cell centres, each cell has the function's value. -/
theorem C98_function_partial [Zero V] (q : List (ℕ × K × K)) (ints : Bool) (f : List (List K) → Arr V)
    (hq : ∀ t ∈ q, 2 ≤ t.1 ∧ t.2.2 ≠ 0) (hf : ∀ cs, (f cs).shape = cs.map List.length) :
    ∃ (g : Grid K V) (b : Arr V), gridFromFunction id f (axesOf ints q) = .ok g ∧ g.grid = some b ∧
      g.axes = (axesOf ints q).map (·.vals) ∧ g.nPix = q.map (·.1) ∧
      b.shape = g.nPix ++ [1] ∧
      ∀ c, cell b c 0 = (f (q.map (fun t => (List.range t.1).map
        (fun j : ℕ => t.2.1 + ((j : K) + 1 / 2) * t.2.2)))).get c := by
  obtain ⟨g, h1, h2, h3, h4, h5, h6, h7, -⟩ := C98_axes_partial (V := V) q ints 1 none none hq (by simp) (by simp)
  have hs : (f g.centers).shape = g.nPix := by
    rw [hf, h4, h3, List.map_map]
    apply List.map_congr_left
    intro t _
    simp
  unfold gridFromFunction
  simp only [h1, hs, h7, if_true]
  refine ⟨_, _, rfl, rfl, h2, h3, rfl, ?_⟩
  intro c
  simp [cell, h4]

/-- **C98**: more than one property cannot be asked for, although documented. -/
theorem C98_function_one_property [Zero V] (rd : K → K) (f : List (List K) → Arr V)
    (axes : List (NArr K)) (m : ℕ) (hm : m ≠ 1) (au gu : Option (List (Option String))) (g : Grid K V) :
    gridFromFunction rd f axes m au gu ≠ .ok g := by
  intro h
  unfold gridFromFunction at h
  rcases hg : (gridFromAxes rd axes m au gu : Except Err (Grid K V)) with e | g0
  · rw [hg] at h; cases h
  rw [hg] at h
  simp only at h
  split at h
  · rename_i hs
    obtain ⟨plan, g1, -, h0, hp, -⟩ := gridFromAxes_ok rd axes m au gu g0 hg
    have := (new_facts m _ _ _ _ au gu g1 (by simp) (by simp) h0).2.2.1
    have := (List.append_inj' hs rfl).2
    simp at this
    omega
  · cases h

/-- **C98**: a function whose result does not have one entry per cell is refused. -/
theorem C98_function_shape [Zero V] (rd : K → K) (f : List (List K) → Arr V)
    (axes : List (NArr K)) (m : ℕ) (au gu : Option (List (Option String))) (g0 : Grid K V)
    (h : gridFromAxes rd axes m au gu = .ok g0) (hf : (f g0.centers).shape ≠ g0.nPix) :
    gridFromFunction rd f axes m au gu = .error .valueError := by
  unfold gridFromFunction
  rw [h]
  simp only
  rw [if_neg]
  intro hs
  exact hf (List.append_inj' hs rfl).1

/-! ## Floating point numbers -/

theorem double_multiple (y : K) (hy : IsDouble y) (k : ℤ) (h : 2 ^ k ≤ |y|) :
    ∃ j : ℤ, y = j * 2 ^ (k - 52) := by
  obtain ⟨m, e, hm, rfl⟩ := hy
  by_cases he : k - 52 ≤ e
  · refine ⟨m * 2 ^ (e - (k - 52)).toNat, ?_⟩
    have : (2 : K) ^ e = 2 ^ (e - (k - 52)).toNat * 2 ^ (k - 52) := by
      rw [← zpow_natCast, ← zpow_add₀ (by norm_num)]
      congr 1
      omega
    rw [this]; push_cast; ring
  · exfalso
    have h2 : (0 : K) < 2 ^ e := zpow_pos (by norm_num) _
    rw [abs_mul, abs_of_pos h2] at h
    have hmk : |(m : K)| < 2 ^ 53 := by
      rw [← Int.cast_abs]; exact_mod_cast hm
    have h3 : (2 : K) ^ 53 * 2 ^ e ≤ 2 ^ k := by
      rw [← zpow_natCast, ← zpow_add₀ (by norm_num)]
      apply zpow_le_zpow_right₀ (by norm_num)
      push_cast; omega
    have h4 : |(m : K)| * 2 ^ e < 2 ^ 53 * 2 ^ e := mul_lt_mul_of_pos_right hmk h2
    linarith

theorem double_pow (k : ℤ) : IsDouble ((2 : K) ^ k) := ⟨1, k, by norm_num, by simp⟩

/-- The result of rounding, if a floating point number is nearer than half the distance of two of them. -/
theorem round_eq (rd : K → K) (hrd : Nearest rd) (x : K) (k M : ℤ) (hx : 2 ^ k ≤ x) (hM : |M| < 2 ^ 53)
    (h : |(M : K) * 2 ^ (k - 52) - x| < 2 ^ (k - 52) / 2) : rd x = M * 2 ^ (k - 52) := by
  obtain ⟨h1, h2⟩ := hrd x
  have hk : (0 : K) < 2 ^ k := zpow_pos (by norm_num) _
  have hy : 2 ^ k ≤ rd x := by
    by_contra hlt
    push Not at hlt
    have := h2 _ (double_pow k)
    rw [abs_of_neg (by linarith), abs_of_nonpos (by linarith)] at this
    linarith
  obtain ⟨j, hj⟩ := double_multiple (rd x) h1 k (by rwa [abs_of_pos (by linarith)])
  have h3 := h2 _ ⟨M, k - 52, hM, rfl⟩
  have hpos : (0 : K) < 2 ^ (k - 52) := zpow_pos (by norm_num) _
  have h4 : |(j - M : K) * 2 ^ (k - 52)| < 1 * 2 ^ (k - 52) := by
    have : (j - M : K) * 2 ^ (k - 52) = (rd x - x) - (M * 2 ^ (k - 52) - x) := by rw [hj]; ring
    rw [this]
    have := abs_sub (rd x - x) (M * 2 ^ (k - 52) - x)
    linarith
  rw [abs_mul, abs_of_pos hpos] at h4
  have h5 : |((j - M : ℤ) : K)| < 1 := by
    push_cast
    exact lt_of_mul_lt_mul_right h4 hpos.le
  rw [← Int.cast_abs] at h5
  have h6 : |j - M| < 1 := by exact_mod_cast h5
  have h7 : j = M := by
    have := Int.abs_lt_one_iff.1 h6
    omega
  rw [hj, h7]

theorem round_exact (rd : K → K) (hrd : Nearest rd) (x : K) (hx : IsDouble x) : rd x = x := by
  have := (hrd x).2 x hx
  rw [sub_self, abs_zero] at this
  exact sub_eq_zero.1 (abs_nonpos_iff.1 this)

/-- Rounding to the nearest floating point number is possible. -/
theorem nearest_exists : ∃ rd : K → K, Nearest rd := by
  have key : ∀ x : K, ∃ y, IsDouble y ∧ ∀ z, IsDouble z → |y - x| ≤ |z - x| := by
    intro x
    by_cases hx : x = 0
    · subst hx
      exact ⟨0, ⟨0, 0, by norm_num, by simp⟩, fun z _ => by simp⟩
    obtain ⟨k, hk1, hk2⟩ := exists_mem_Ico_zpow (abs_pos.2 hx) (show (1 : K) < 2 by norm_num)
    have hpos : (0 : K) < 2 ^ (k - 52) := zpow_pos (by norm_num) _
    have hk : (2 : K) ^ k = 2 ^ 52 * 2 ^ (k - 52) := by
      rw [← zpow_natCast, ← zpow_add₀ (by norm_num)]; congr 1; push_cast; ring
    have hk' : (2 : K) ^ (k + 1) = 2 ^ 53 * 2 ^ (k - 52) := by
      rw [← zpow_natCast, ← zpow_add₀ (by norm_num)]; congr 1; push_cast; ring
    -- multiples of the distance
    have near : ∀ j : ℤ, |(round (x / 2 ^ (k - 52)) : K) * 2 ^ (k - 52) - x| ≤ |j * 2 ^ (k - 52) - x| := by
      intro j
      have h1 := round_le (x / 2 ^ (k - 52)) j
      have e : ∀ i : ℤ, |(i : K) * 2 ^ (k - 52) - x| = |x / 2 ^ (k - 52) - i| * 2 ^ (k - 52) := by
        intro i
        rw [← abs_of_pos hpos, ← abs_mul, abs_of_pos hpos, abs_sub_comm]
        congr 1
        field_simp
      rw [e, e]
      exact mul_le_mul_of_nonneg_right h1 hpos.le
    refine ⟨(round (x / 2 ^ (k - 52)) : K) * 2 ^ (k - 52), ?_, ?_⟩
    · have hb : |round (x / 2 ^ (k - 52))| ≤ 2 ^ 53 := by
        have h1 : |x / 2 ^ (k - 52)| < 2 ^ 53 := by
          rw [abs_div, abs_of_pos hpos, div_lt_iff₀ hpos, ← hk']; exact hk2
        have h2 := abs_sub_round (x / 2 ^ (k - 52))
        have h3 : |(round (x / 2 ^ (k - 52)) : K)| < 2 ^ 53 + 1 := by
          rw [abs_le] at h2
          rw [abs_lt] at h1 ⊢
          constructor <;> linarith [h2.1, h2.2, h1.1, h1.2]
        rw [← Int.cast_abs] at h3
        have h4 : |round (x / 2 ^ (k - 52))| < 2 ^ 53 + 1 := by exact_mod_cast h3
        omega
      rcases lt_or_eq_of_le hb with hlt | heq
      · exact ⟨_, _, hlt, rfl⟩
      · rcases abs_eq (by norm_num) |>.1 heq with h1 | h1
        · exact ⟨1, k + 1, by norm_num, by rw [h1, hk']; push_cast; ring⟩
        · exact ⟨-1, k + 1, by norm_num, by rw [h1, hk']; push_cast; ring⟩
    · intro z hz
      by_cases hzk : 2 ^ k ≤ |z|
      · obtain ⟨j, rfl⟩ := double_multiple z hz k hzk
        exact near j
      · push Not at hzk
        rcases lt_or_gt_of_ne hx with hneg | hp
        · have h1 := near (-2 ^ 52)
          rw [Int.cast_neg, Int.cast_pow, Int.cast_ofNat, neg_mul, ← hk] at h1
          rw [abs_of_neg hneg] at hk1
          have h2 := abs_lt.1 hzk
          refine le_trans h1 ?_
          rw [abs_of_nonneg (by linarith), abs_of_nonneg (by linarith)]
          linarith
        · have h1 := near (2 ^ 52)
          rw [Int.cast_pow, Int.cast_ofNat, ← hk] at h1
          rw [abs_of_pos hp] at hk1
          have h2 := abs_lt.1 hzk
          refine le_trans h1 ?_
          rw [abs_of_nonpos (by linarith), abs_of_nonpos (by linarith)]
          linarith
  choose rd h using key
  exact ⟨rd, h⟩

/-- **C98** as documented: a grid made from axes has one cell between each two neighbouring edges. -/
def C98_full (K V : Type) [Field K] [LinearOrder K] [FloorRing K] : Prop :=
  ∀ (rd : K → K), Nearest rd → ∀ (axes : List (NArr K)), (∀ a ∈ axes, 3 ≤ a.vals.length) →
    ∀ g : Grid K V, gridFromAxes rd axes = .ok g → g.nPix = axes.map (fun a => a.vals.length - 1)

/-- **C98**, with floating point numbers however halves are rounded: seven equal cells from 0 to 17 give a
grid of eight pixels. -/
theorem C98_one_pixel_too_many (rd : K → K) (hrd : Nearest rd) (ints : Bool) (ax : List K)
    (hl : ax.length = 8) (h0 : ax.head? = some 0) (h1 : ax.getLast? = some 17)
    (hs : (diff ax).all (fun s => isclose s ((diff ax).headD 0)) = true)
    (au gu : Option (List (Option String))) (m : ℕ)
    (hau : ∀ l, au = some l → l.length = 1) (hgu : ∀ l, gu = some l → l.length = m) :
    ∃ g : Grid K V, gridFromAxes rd [⟨ints, ax⟩] m au gu = .ok g ∧ g.nPix = [8] ∧
      g.axes.map List.length = [8] ∧ g.centers.map List.length = [7] := by
  have e17 : rd 17 = 17 := round_exact rd hrd 17 ⟨17, 0, by norm_num, by norm_num⟩
  obtain ⟨W, hW⟩ : ∃ W : K, W = 5468656690378459 / 2251799813685248 := ⟨_, rfl⟩
  have hw : rd (17 / 7) = W := by
    rw [round_eq rd hrd (17 / 7) 1 5468656690378459 (by norm_num) (by norm_num)
      (by norm_num [abs_lt]), hW]
    norm_num
  have hpos : 0 < W := by rw [hW]; norm_num
  have hd : rd (17 / W) = 7 + 1 / 2 ^ 50 := by
    rw [round_eq rd hrd (17 / W) 2 (7 * 2 ^ 50 + 1) (by rw [hW]; norm_num) (by norm_num)
      (by rw [hW]; norm_num [abs_lt])]
    norm_num
  have hside : rd (W * 7) = 17 := by
    rw [round_eq rd hrd (W * 7) 4 (17 * 2 ^ 48) (by rw [hW]; norm_num) (by norm_num)
      (by rw [hW]; norm_num [abs_lt])]
    norm_num
  have hplan : axisPlan rd ax = .ok (rd (17 / 2), 17, W) := by
    unfold axisPlan
    simp only [h0, h1, hs, if_true, hl, sub_zero, add_zero, e17]
    congr 3
  have hpc : pixelCount 17 W = .ok 7 := by
    unfold pixelCount
    rw [if_neg hpos.ne']
    have hc : ⌈round1 (17 / W)⌉ = 7 := by
      rw [ceil_round1, Int.ceil_eq_iff, hW]
      constructor <;> norm_num
    simp only [hc]
    norm_num
    rfl
  obtain ⟨au', ha1, -⟩ := spreadUnits_given au 1 hau
  obtain ⟨gu', hg1, -⟩ := spreadUnits_given gu m hgu
  obtain ⟨S, hS, hSv⟩ := spreadSide_full (⟨ints, [17]⟩ : NArr K) 1 rfl
  obtain ⟨g, hg, hreg, hcen, hpix, hn, -⟩ := new_ok (V := V) m ⟨false, [rd (17 / 2)]⟩ ⟨ints, [17]⟩ ⟨false, [W]⟩ S
    ⟨false, [W]⟩ au gu au' gu' hS (by simp [spreadPix]) ha1 hg1 (by simp [hpos]) [7]
    (by simp [hSv, mapE, hpc])
  have hdim : g.dim = 1 := by simp [Grid.dim, hcen]
  obtain ⟨n, w, c, -, -, hax⟩ := hreg.axis 0 (by omega)
  have h7 : n = 7 := by
    have := hax.nPix
    rw [hn] at this
    simpa using this.symm
  subst h7
  have hA : g.axes = [edges 7 w c] := by
    obtain ⟨x, hx⟩ := List.length_eq_one_iff.1 (hreg.axes.trans hdim)
    have := hax.axes
    rw [hx] at this ⊢
    simpa using this
  have hC : g.centers = [middles 7 w c] := by
    obtain ⟨x, hx⟩ := List.length_eq_one_iff.1 (hreg.centers.trans hdim)
    have := hax.centers
    rw [hx] at this ⊢
    simpa using this
  unfold gridFromAxes
  simp only [mapE, hplan, List.map_cons, List.map_nil, List.all_cons, List.all_nil, Bool.and_true, hg]
  refine ⟨_, rfl, ?_, ?_, ?_⟩
  · simp only [hn, hpix, refitSide, List.zipWith_cons_cons, List.zipWith_nil_left, List.map_cons, List.map_nil, hd]
    rw [if_neg (by norm_num)]
    norm_num [hside, hd]
    have hc : ⌈(7 : K) + 1 / 2 ^ 50⌉ = 8 := by
      rw [Int.ceil_eq_iff]; push_cast; constructor <;> norm_num
    norm_num at hc
    simp [hc]
  · simp [hA, edges]
  · simp [hC, middles]

/-- So a function with one value per cell is refused. -/
theorem C98_function_refused [Zero V] (rd : K → K) (hrd : Nearest rd) (ints : Bool) (ax : List K)
    (hl : ax.length = 8) (h0 : ax.head? = some 0) (h1 : ax.getLast? = some 17)
    (hs : (diff ax).all (fun s => isclose s ((diff ax).headD 0)) = true)
    (f : List (List K) → Arr V) (hf : ∀ cs, (f cs).shape = cs.map List.length) :
    gridFromFunction rd f [⟨ints, ax⟩] = .error .valueError := by
  obtain ⟨g, hg, h2, -, h3⟩ := C98_one_pixel_too_many (V := V) rd hrd ints ax hl h0 h1 hs none none 1
    (by simp) (by simp)
  apply C98_function_shape rd f _ 1 none none g hg
  rw [hf, h3, h2]
  decide

/-- The axis exists: seven equal cells, each edge being the floating point number next to the exact one or
the exact one. -/
example : (steps 7 (0 : ℚ) (17 / 7)).length = 8 ∧ (steps 7 (0 : ℚ) (17 / 7)).head? = some 0 ∧
    (steps 7 (0 : ℚ) (17 / 7)).getLast? = some 17 ∧
    (diff (steps 7 (0 : ℚ) (17 / 7))).all
      (fun s => isclose s ((diff (steps 7 (0 : ℚ) (17 / 7))).headD 0)) = true := by
  decide +kernel

theorem C98_full_false : ¬ C98_full ℚ ℚ := by
  intro h
  obtain ⟨rd, hrd⟩ := nearest_exists (K := ℚ)
  have hx : (steps 7 (0 : ℚ) (17 / 7)).length = 8 ∧ (steps 7 (0 : ℚ) (17 / 7)).head? = some 0 ∧
      (steps 7 (0 : ℚ) (17 / 7)).getLast? = some 17 ∧
      (diff (steps 7 (0 : ℚ) (17 / 7))).all
        (fun s => isclose s ((diff (steps 7 (0 : ℚ) (17 / 7))).headD 0)) = true := by
    decide +kernel
  obtain ⟨g, hg, h2, -⟩ := C98_one_pixel_too_many (V := ℚ) rd hrd false _ hx.1 hx.2.1 hx.2.2.1 hx.2.2.2
    none none 1 (by simp) (by simp)
  have := h rd hrd [⟨false, steps 7 (0 : ℚ) (17 / 7)⟩] (by simp [steps_length]) g hg
  rw [h2] at this
  simp [steps_length] at this

/-- Two axes, one downwards. -/
example : ∃ g : Grid ℚ ℚ, gridFromAxes id (axesOf false [(3, (0 : ℚ), 2), (2, 5, -1)]) 2 = .ok g ∧
    g.axes = [[0, 2, 4, 6], [5, 4, 3]] ∧ g.nPix = [3, 2] := by
  obtain ⟨g, h1, h2, h3, -⟩ := C98_axes_partial (V := ℚ) [(3, (0 : ℚ), 2), (2, 5, -1)] false 2 none none
    (by decide +kernel) (by simp) (by simp)
  refine ⟨g, h1, ?_, by rw [h3]; rfl⟩
  rw [h2]
  decide +kernel

/-- Uneven tiny steps: 1e-9 and 4e-9. -/
example : ∃ g : Grid ℚ ℚ, gridFromAxes id [⟨false, [0, 1 / 10 ^ 9, 5 / 10 ^ 9]⟩] 1 = .ok g ∧
    g.axes = [[0, 5 / 10 ^ 9 / 2, 5 / 10 ^ 9]] := by
  obtain ⟨g, h1, h2⟩ := C98_tiny_steps (K := ℚ) (V := ℚ) [0, 1 / 10 ^ 9, 5 / 10 ^ 9] 2 0 (5 / 10 ^ 9) (le_refl _) rfl
    rfl rfl (by norm_num) (by decide +kernel)
  refine ⟨g, h1, ?_⟩
  rw [h2]
  decide +kernel

/-- A refused axis. -/
example : (gridFromAxes id [⟨false, [0, 1, 3]⟩] : Except Err (Grid ℚ ℚ)) = .error .valueError := by
  apply C98_uneven_refused
  · simp
  · refine ⟨(⟨false, [0, 1, 3]⟩ : NArr ℚ), by simp, 2, by decide +kernel, 1, by decide +kernel, by norm_num⟩

end Verif.Map
