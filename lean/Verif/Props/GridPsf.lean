import Verif.Model.GridPsf
import Verif.Spec.GridPsf
import Verif.Props.GridMake
import Mathlib.Analysis.SpecialFunctions.Log.Basic
import Mathlib.Tactic.FieldSimp

/-!
# C101: Gaussian point spread functions
-/

set_option linter.unusedSectionVars false

namespace Verif.Map

open Verif.Sim (Err)
open Spec

/-! ## The profile -/

theorem log_two_sq : (2 * Real.sqrt (2 * Real.log 2)) ^ 2 = 8 * Real.log 2 := by
  rw [mul_pow, Real.sq_sqrt (by have := Real.log_pos (by norm_num : (1 : ℝ) < 2); positivity)]
  ring

theorem gaussian_bell (f k x : ℝ) (hf : f ≠ 0) (hk : k ≠ 0) : gaussian (sigma f * k) x = bell (f * k) x := by
  have hl := Real.log_pos (by norm_num : (1 : ℝ) < 2)
  unfold gaussian sigma bell
  rw [Real.rpow_def_of_pos (by norm_num)]
  congr 1
  rw [one_div, Real.log_inv, mul_pow, div_pow, log_two_sq]
  field_simp
  ring

theorem bell_pos (f x : ℝ) : 0 < bell f x := Real.rpow_pos_of_pos (by norm_num) _

theorem bell_neg (f x : ℝ) : bell f (-x) = bell f x := by
  unfold bell
  congr 1
  ring

theorem bell_le_one (f x : ℝ) : bell f x ≤ 1 :=
  Real.rpow_le_one (by norm_num) (by norm_num) (by positivity)

theorem bell_anti (f x y : ℝ) (hf : 0 < f) (h : |x| ≤ |y|) : bell f y ≤ bell f x := by
  unfold bell
  apply Real.rpow_le_rpow_of_exponent_ge (by norm_num) (by norm_num)
  have := sq_le_sq.2 h
  rw [div_pow, div_pow, mul_pow, mul_pow]
  gcongr

/-- **C101**: what the width means: the profile is one in the middle and one half at half the width on both
sides, and decreases with the distance. -/
theorem C101_width (f : ℝ) (hf : 0 < f) :
    bell f 0 = 1 ∧ bell f (f / 2) = 1 / 2 ∧ bell f (-(f / 2)) = 1 / 2 ∧
      ∀ x y, |x| < |y| → bell f y < bell f x := by
  have h : bell f (f / 2) = 1 / 2 := by
    unfold bell
    have : (2 * (f / 2) / f) ^ 2 = 1 := by field_simp
    rw [this, Real.rpow_one]
  refine ⟨by simp [bell], h, by rw [bell_neg, h], ?_⟩
  intro x y hxy
  unfold bell
  apply Real.rpow_lt_rpow_of_exponent_gt (by norm_num) (by norm_num)
  have := sq_lt_sq.2 hxy
  rw [div_pow, div_pow, mul_pow, mul_pow]
  gcongr

/-! ## Cells -/

theorem psfIndices_eq : ∀ s, psfIndices s = allCells s
  | [] => rfl
  | n :: s => by simp [psfIndices, allCells, psfIndices_eq s]

theorem allCells_one : ∀ s, allCells (s ++ [1]) = (allCells s).map (· ++ [0])
  | [] => by simp [allCells]
  | n :: s => by
    rw [List.cons_append]
    unfold allCells
    rw [allCells_one s]
    simp [List.map_flatMap, Function.comp_def]

theorem middles_getD (n : ℕ) (w : ℝ) (j : ℕ) (hj : j < n) : (middles n w 0).getD j 0 = middle n w j := by
  unfold middles middle
  rw [List.getD_eq_getElem?_getD, List.getElem?_map, List.getElem?_range hj]
  simp only [Option.map_some, Option.getD_some]
  ring

theorem product (k : ℝ) (hk : k ≠ 0) : ∀ (ns : List ℕ) (ws fs : List ℝ) (more : List (List ℝ)) (c e : List ℕ), Valid ns c → ws.length = ns.length →
    fs.length = ns.length → (∀ f ∈ fs, f ≠ 0) →
    (List.zipWith (fun (q : List ℝ × ℝ) j => gaussian (sigma q.2 * k) (q.1.getD j 0))
      ((List.zipWith (fun (n : ℕ) w => middles n w (0 : ℝ)) ns ws ++ more).zip fs) (c ++ e)).prod =
      bells (fs.map (· * k)) (place ns ws c)
  | [], ws, fs, more, c, e, hv, h1, h2, h3 => by
    have : fs = [] := List.length_eq_zero_iff.1 (by simpa using h2)
    subst this
    simp [bells]
  | n :: ns, [], fs, more, c, e, hv, h1, h2, h3 => by simp at h1
  | n :: ns, w :: ws, [], more, c, e, hv, h1, h2, h3 => by simp at h2
  | n :: ns, w :: ws, f :: fs, more, [], e, hv, h1, h2, h3 => by have := hv.length; simp at this
  | n :: ns, w :: ws, f :: fs, more, j :: c, e, hv, h1, h2, h3 => by
    obtain ⟨hj, hv'⟩ := valid_cons.1 hv
    have ih := product k hk ns ws fs more c e hv' (by simpa using h1) (by simpa using h2)
      (fun f hf => h3 f (List.mem_cons_of_mem _ hf))
    simp only [List.zipWith_cons_cons, List.cons_append, List.zip_cons_cons, List.prod_cons, ih, bells, place,
      List.map_cons]
    rw [middles_getD n w j hj, gaussian_bell f k _ (h3 f (by simp)) hk]

theorem psfSpread_ok (a : NArr ℝ) (d : ℕ) (h : (lengths d a.vals).length = d) :
    ∃ b, psfSpread a d = .ok ⟨b, lengths d a.vals⟩ := by
  unfold psfSpread
  unfold lengths at h ⊢
  obtain ⟨isInt, vals⟩ := a
  match vals, h with
  | [x], h => exact ⟨false, by simp⟩
  | [], h => exact ⟨isInt, by simpa using h⟩
  | x :: y :: l, h => exact ⟨isInt, by simpa using h⟩

/-- The centres of the cells of a grid around zero. -/
theorem around_centers (g : Grid ℝ ℝ) (ws sides : List ℝ) (hs : sides.length = ws.length) (h : Around g ws sides) :
    g.centers = List.zipWith (fun (n : ℕ) w => middles n w (0 : ℝ)) g.nPix ws ∧ g.nPix.length = ws.length := by
  have hn : g.nPix.length = ws.length := by rw [h.regular.nPix, h.dim]
  refine ⟨?_, hn⟩
  apply List.ext_getElem?
  intro i
  by_cases hi : i < ws.length
  · obtain ⟨n, hax, -⟩ := h.axis i ws[i] (sides[i]'(by omega)) (List.getElem?_eq_getElem hi)
      (List.getElem?_eq_getElem (by omega))
    rw [hax.centers, List.getElem?_zipWith, hax.nPix, List.getElem?_eq_getElem hi]
  · rw [List.getElem?_eq_none (by rw [h.regular.centers, h.dim]; omega),
      List.getElem?_eq_none (by simp; omega)]

/-- Sum of the profile over the cells of a grid. -/
noncomputable def bellSum (ns : List ℕ) (ws fs : List ℝ) : ℝ :=
  ((allCells ns).map (fun c => bells fs (place ns ws c))).sum

/-- **C101**: the grid is around zero, has the pixel sizes and (up to one pixel) side lengths asked for, by
default six times the width; each cell has the value of the Gaussian profile at its centre, divided by the sum
over all cells if the norm is `area`. -/
theorem C101_cells (fwhm pix : NArr ℝ) (side : Option (NArr ℝ)) (au : Option (List (Option String)))
    (norm : String) (hnorm : norm = "area" ∨ norm = "peak") (hf : ∀ f ∈ fwhm.vals, 0 < f)
    (hs : (psfSide fwhm.vals side).length = fwhm.vals.length)
    (hp : (lengths fwhm.vals.length pix.vals).length = fwhm.vals.length)
    (hw : ∀ w ∈ lengths fwhm.vals.length pix.vals, 0 < w)
    (hmin : ∀ (i : ℕ) (s w : ℝ), (psfSide fwhm.vals side)[i]? = some s →
      (lengths fwhm.vals.length pix.vals)[i]? = some w → (1 + 1 / 20) * w < s)
    (hau : ∀ l, au = some l → l.length = fwhm.vals.length) :
    ∃ g t, psf fwhm pix side au norm = .ok g ∧ g.grid = some t ∧
      Around g (lengths fwhm.vals.length pix.vals) (psfSide fwhm.vals side) ∧
      ∀ c, Valid g.nPix c → cell t c 0 =
        bells fwhm.vals (place g.nPix (lengths fwhm.vals.length pix.vals) c) /
          (if norm = "area" then bellSum g.nPix (lengths fwhm.vals.length pix.vals) fwhm.vals else 1) := by
  obtain ⟨ws, hws⟩ : ∃ ws, ws = lengths fwhm.vals.length pix.vals := ⟨_, rfl⟩
  obtain ⟨sides, hsides⟩ : ∃ s, s = psfSide fwhm.vals side := ⟨_, rfl⟩
  rw [← hws] at hp hw hmin
  rw [← hsides] at hs hmin
  rw [← hws, ← hsides]
  obtain ⟨b1, hS⟩ : ∃ b, psfSides fwhm side = .ok ⟨b, sides⟩ := by
    cases side with
    | none => exact ⟨fwhm.isInt, by rw [hsides]; rfl⟩
    | some s =>
      simp only [psfSide] at hsides
      rw [hsides]
      exact psfSpread_ok s _ (by rw [← hsides]; exact hs)
  obtain ⟨b2, hP⟩ := psfSpread_ok pix fwhm.vals.length (by rw [← hws]; exact hp)
  rw [← hws] at hP
  obtain ⟨g, q1, q2, q3, q4, q5, q6, q7, q8, q9, -, q10⟩ := new_fit (V := ℝ) 1
    ⟨false, List.replicate fwhm.vals.length (0 : ℝ)⟩ ⟨b1, sides⟩ ⟨b2, ws⟩ au none
    (by simpa using hau) (by simp) (by simpa using hs) (by simpa using hp) hw hmin
  have hdim : g.dim = ws.length := by
    unfold Grid.dim
    rw [q3, hp]
    simp
  have hA : Around g ws sides := by
    refine ⟨q2, hdim, q5, ?_⟩
    intro i w s hwi hsi
    have hi : i < fwhm.vals.length := by
      rw [← hp]; exact (List.getElem?_eq_some_iff.1 hwi).1
    exact q10 i s w 0 hsi hwi (by rw [List.getElem?_replicate, if_pos hi])
  obtain ⟨hc, hn⟩ := around_centers g ws sides (by rw [hs, hp]) hA
  have hcell : ∀ c, Valid g.nPix c →
      (psfArr g.nPix g.centers fwhm.vals).get (c ++ [0]) = bells fwhm.vals (place g.nPix ws c) := by
    intro c hv
    have := product 1 one_ne_zero g.nPix ws fwhm.vals [] c [0] hv hn.symm (by rw [hn, hp])
      (fun f hf' => (hf f hf').ne')
    simp only [mul_one, List.append_nil, List.map_id'] at this
    rw [← this]
    unfold psfArr
    simp only [hc]
  have hsum : ((psfIndices (psfArr g.nPix g.centers fwhm.vals).shape).map
      (psfArr g.nPix g.centers fwhm.vals).get).sum = bellSum g.nPix ws fwhm.vals := by
    have hsh : (psfArr g.nPix g.centers fwhm.vals).shape = g.nPix ++ [1] := rfl
    rw [hsh, psfIndices_eq, allCells_one, List.map_map]
    unfold bellSum
    congr 1
    apply List.map_congr_left
    intro c hc'
    exact hcell c ((mem_allCells _ c).1 hc')
  obtain ⟨t, ht⟩ : ∃ t : Arr ℝ, t = if norm = "area" then ⟨(psfArr g.nPix g.centers fwhm.vals).shape, fun i =>
      (psfArr g.nPix g.centers fwhm.vals).get i / ((psfIndices (psfArr g.nPix g.centers fwhm.vals).shape).map
        (psfArr g.nPix g.centers fwhm.vals).get).sum⟩ else psfArr g.nPix g.centers fwhm.vals := ⟨_, rfl⟩
  refine ⟨{ g with nObj := 0, grid := some t }, t, ?_, rfl, ?_, ?_⟩
  · rw [ht]
    unfold psf
    rw [if_neg (by rcases hnorm with rfl | rfl <;> simp)]
    simp only [hS, hP, q1]
  · refine ⟨⟨q2.nPix, q2.pix, q2.side, q2.axes, q2.centers, q2.fcenters, q2.faxes, q2.fourier, ?_, ?_⟩,
      hdim, q5, ?_⟩
    · intro i hi
      obtain ⟨n, w, c, h1, h2, h3⟩ := q2.axis i hi
      exact ⟨n, w, c, h1, h2, ⟨h3.nPix, h3.pix, h3.center, h3.side, h3.axes, h3.centers, h3.fcenters, h3.faxes⟩⟩
    · intro a ha
      simp only [Option.some.injEq] at ha
      rw [← ha, ht]
      simp only [q5]
      split <;> rfl
    · intro i w s h1 h2
      obtain ⟨n, h3, h4⟩ := hA.axis i w s h1 h2
      exact ⟨n, ⟨h3.nPix, h3.pix, h3.center, h3.side, h3.axes, h3.centers, h3.fcenters, h3.faxes⟩, h4⟩
  · intro c hv
    unfold cell
    rw [ht]
    split
    · simp only
      rw [hcell c hv, hsum]
    · rw [hcell c hv, div_one]

theorem bells_pos (fs xs : List ℝ) : 0 < bells fs xs := by
  unfold bells
  apply List.prod_pos
  intro a ha
  obtain ⟨i, hi⟩ := List.getElem?_of_mem ha
  rw [List.getElem?_zipWith] at hi
  rcases h1 : fs[i]? with _ | f
  · simp [h1] at hi
  · rcases h2 : xs[i]? with _ | x
    · simp [h1, h2] at hi
    · simp [h1, h2] at hi
      rw [← hi]; exact bell_pos _ _

theorem sum_div_list (l : List (List ℕ)) (f : List ℕ → ℝ) (s : ℝ) :
    (l.map (fun c => f c / s)).sum = (l.map f).sum / s := by
  induction l with
  | nil => simp
  | cons a l ih => simp [ih, add_div]

theorem valid_zero : ∀ s : List ℕ, (∀ n ∈ s, 1 ≤ n) → Valid s (s.map (fun _ => 0))
  | [], _ => List.Forall₂.nil
  | n :: s, h => valid_cons.2 ⟨h n (by simp), valid_zero s (fun m hm => h m (List.mem_cons_of_mem _ hm))⟩

theorem around_two (g : Grid ℝ ℝ) (ws sides : List ℝ) (h : Around g ws sides) : ∀ n ∈ g.nPix, 1 ≤ n := by
  intro n hn
  obtain ⟨i, hi⟩ := List.getElem?_of_mem hn
  have hi' := (List.getElem?_eq_some_iff.1 hi).1
  rw [h.regular.nPix] at hi'
  obtain ⟨n', w, c, h1, h2, h3⟩ := h.regular.axis i hi'
  rw [h3.nPix] at hi
  simp only [Option.some.injEq] at hi
  omega

theorem bellSum_pos (ns : List ℕ) (ws fs : List ℝ) (h : ∀ n ∈ ns, 1 ≤ n) : 0 < bellSum ns ws fs := by
  unfold bellSum
  apply List.sum_pos
  · intro x hx
    obtain ⟨c, -, rfl⟩ := List.mem_map.1 hx
    exact bells_pos _ _
  · intro h0
    have := (mem_allCells ns _).2 (valid_zero ns h)
    rw [List.map_eq_nil_iff] at h0
    rw [h0] at this
    simp at this

/-- **C101**: with norm `area` the cells add up to one. -/
theorem C101_area (fwhm pix : NArr ℝ) (side : Option (NArr ℝ)) (au : Option (List (Option String)))
    (hf : ∀ f ∈ fwhm.vals, 0 < f)
    (hs : (psfSide fwhm.vals side).length = fwhm.vals.length)
    (hp : (lengths fwhm.vals.length pix.vals).length = fwhm.vals.length)
    (hw : ∀ w ∈ lengths fwhm.vals.length pix.vals, 0 < w)
    (hmin : ∀ (i : ℕ) (s w : ℝ), (psfSide fwhm.vals side)[i]? = some s →
      (lengths fwhm.vals.length pix.vals)[i]? = some w → (1 + 1 / 20) * w < s)
    (hau : ∀ l, au = some l → l.length = fwhm.vals.length) :
    ∃ g t, psf fwhm pix side au = .ok g ∧ g.grid = some t ∧ total g t 0 = 1 ∧
      ∀ c, Valid g.nPix c → 0 < cell t c 0 := by
  obtain ⟨g, t, h1, h2, h3, h4⟩ := C101_cells fwhm pix side au "area" (Or.inl rfl) hf hs hp hw hmin hau
  have hpos := bellSum_pos g.nPix (lengths fwhm.vals.length pix.vals) fwhm.vals (around_two g _ _ h3)
  refine ⟨g, t, h1, h2, ?_, ?_⟩
  · unfold total
    have e : (allCells g.nPix).map (fun c => cell t c 0) = (allCells g.nPix).map (fun c =>
        bells fwhm.vals (place g.nPix (lengths fwhm.vals.length pix.vals) c) /
          bellSum g.nPix (lengths fwhm.vals.length pix.vals) fwhm.vals) := by
      apply List.map_congr_left
      intro c hc
      rw [h4 c ((mem_allCells _ c).1 hc), if_pos rfl]
    rw [e, sum_div_list]
    exact div_self hpos.ne'
  · intro c hc
    rw [h4 c hc, if_pos rfl]
    exact div_pos (bells_pos _ _) hpos

theorem middle_mirror (n j : ℕ) (w : ℝ) (h : j < n) : middle n w (n - 1 - j) = -middle n w j := by
  unfold middle
  rw [Nat.sub_sub, Nat.cast_sub (by omega)]
  push_cast
  ring

theorem bells_mirror : ∀ (ns : List ℕ) (ws fs : List ℝ) (c : List ℕ) (i : ℕ), Valid ns c →
    bells fs (place ns ws (mirror ns i c)) = bells fs (place ns ws c)
  | [], ws, fs, c, i, hv => by
    have : c = [] := List.length_eq_zero_iff.1 (by simpa using hv.length)
    subst this
    simp [mirror]
  | n :: ns, [], fs, c, i, hv => by simp [place]
  | n :: ns, w :: ws, [], c, i, hv => by simp [bells]
  | n :: ns, w :: ws, f :: fs, [], i, hv => by simp [mirror]
  | n :: ns, w :: ws, f :: fs, j :: c, 0, hv => by
    obtain ⟨hj, -⟩ := valid_cons.1 hv
    simp only [mirror, List.modify_zero_cons, List.getD_cons_zero, place, bells, List.zipWith_cons_cons,
      List.prod_cons]
    rw [middle_mirror n j w hj, bell_neg]
  | n :: ns, w :: ws, f :: fs, j :: c, i + 1, hv => by
    obtain ⟨hj, hv'⟩ := valid_cons.1 hv
    have ih := bells_mirror ns ws fs c i hv'
    simp only [mirror, bells] at ih
    simp only [mirror, List.modify_succ_cons, List.getD_cons_succ, place, bells, List.zipWith_cons_cons,
      List.prod_cons, ih]

theorem valid_mirror : ∀ (ns c : List ℕ) (i : ℕ), Valid ns c → Valid ns (mirror ns i c)
  | [], c, i, hv => by
    have : c = [] := List.length_eq_zero_iff.1 (by simpa using hv.length)
    subst this
    simpa [mirror] using hv
  | n :: ns, [], i, hv => by have := hv.length; simp at this
  | n :: ns, j :: c, 0, hv => by
    obtain ⟨hj, hv'⟩ := valid_cons.1 hv
    simp only [mirror, List.modify_zero_cons, List.getD_cons_zero]
    exact valid_cons.2 ⟨by omega, hv'⟩
  | n :: ns, j :: c, i + 1, hv => by
    obtain ⟨hj, hv'⟩ := valid_cons.1 hv
    have ih := valid_mirror ns c i hv'
    simp only [mirror] at ih
    simp only [mirror, List.modify_succ_cons, List.getD_cons_succ]
    exact valid_cons.2 ⟨hj, ih⟩

/-- **C101**: the function is symmetric: mirrored cells have the same value. -/
theorem C101_symmetric (fwhm pix : NArr ℝ) (side : Option (NArr ℝ)) (au : Option (List (Option String)))
    (norm : String) (hnorm : norm = "area" ∨ norm = "peak") (hf : ∀ f ∈ fwhm.vals, 0 < f)
    (hs : (psfSide fwhm.vals side).length = fwhm.vals.length)
    (hp : (lengths fwhm.vals.length pix.vals).length = fwhm.vals.length)
    (hw : ∀ w ∈ lengths fwhm.vals.length pix.vals, 0 < w)
    (hmin : ∀ (i : ℕ) (s w : ℝ), (psfSide fwhm.vals side)[i]? = some s →
      (lengths fwhm.vals.length pix.vals)[i]? = some w → (1 + 1 / 20) * w < s)
    (hau : ∀ l, au = some l → l.length = fwhm.vals.length) :
    ∃ g t, psf fwhm pix side au norm = .ok g ∧ g.grid = some t ∧
      ∀ c i, Valid g.nPix c → Valid g.nPix (mirror g.nPix i c) ∧ cell t (mirror g.nPix i c) 0 = cell t c 0 := by
  obtain ⟨g, t, h1, h2, h3, h4⟩ := C101_cells fwhm pix side au norm hnorm hf hs hp hw hmin hau
  refine ⟨g, t, h1, h2, ?_⟩
  intro c i hc
  have hv := valid_mirror g.nPix c i hc
  exact ⟨hv, by rw [h4 _ hv, h4 c hc, bells_mirror _ _ _ _ _ hc]⟩

/-! ## The peak -/

theorem bells_le : ∀ (fs xs : List ℝ) (i : ℕ) (f x : ℝ), fs[i]? = some f → xs[i]? = some x →
    bells fs xs ≤ bell f x
  | [], xs, i, f, x, h1, h2 => by simp at h1
  | f' :: fs, [], i, f, x, h1, h2 => by simp at h2
  | f' :: fs, x' :: xs, 0, f, x, h1, h2 => by
    simp at h1 h2
    subst h1 h2
    simp only [bells, List.zipWith_cons_cons, List.prod_cons]
    have : (List.zipWith bell fs xs).prod ≤ 1 := bells_le_one fs xs
    exact mul_le_of_le_one_right (bell_pos _ _).le this
  | f' :: fs, x' :: xs, i + 1, f, x, h1, h2 => by
    have ih := bells_le fs xs i f x (by simpa using h1) (by simpa using h2)
    simp only [bells, List.zipWith_cons_cons, List.prod_cons]
    exact le_trans (mul_le_of_le_one_left (bells_pos fs xs).le (bell_le_one _ _)) ih
where
  bells_le_one : ∀ fs xs : List ℝ, (List.zipWith bell fs xs).prod ≤ 1
  | [], xs => by simp
  | f :: fs, [] => by simp
  | f :: fs, x :: xs => by
    simp only [List.zipWith_cons_cons, List.prod_cons]
    exact mul_le_one₀ (bell_le_one _ _) (bells_pos fs xs).le (bells_le_one fs xs)

theorem place_get : ∀ (ns : List ℕ) (ws : List ℝ) (c : List ℕ) (i n j : ℕ) (w : ℝ), ns[i]? = some n →
    ws[i]? = some w → c[i]? = some j → (place ns ws c)[i]? = some (middle n w j)
  | [], _, _, _, _, _, _, h, _, _ => by simp at h
  | _ :: _, [], _, _, _, _, _, _, h, _ => by simp at h
  | _ :: _, _ :: _, [], _, _, _, _, _, _, h => by simp at h
  | n' :: ns, w' :: ws, j' :: c, 0, n, j, w, h1, h2, h3 => by
    simp at h1 h2 h3
    subst h1 h2 h3
    simp [place]
  | n' :: ns, w' :: ws, j' :: c, i + 1, n, j, w, h1, h2, h3 => by
    simp only [place, List.getElem?_cons_succ]
    exact place_get ns ws c i n j w (by simpa using h1) (by simpa using h2) (by simpa using h3)

theorem middle_even (n j : ℕ) (w : ℝ) (hw : 0 < w) (hn : n % 2 = 0) : w / 2 ≤ |middle n w j| := by
  obtain ⟨m, rfl⟩ : ∃ m, n = 2 * m := ⟨n / 2, by omega⟩
  unfold middle
  rw [abs_mul, abs_of_pos hw]
  have : (1 / 2 : ℝ) ≤ |(j : ℝ) + 1 / 2 - ((2 * m : ℕ) : ℝ) / 2| := by
    push_cast
    rcases Nat.lt_or_ge j m with h | h
    · have h' : (j : ℝ) + 1 ≤ m := by exact_mod_cast h
      rw [abs_of_neg (by linarith)]
      linarith
    · have h' : (m : ℝ) ≤ j := by exact_mod_cast h
      rw [abs_of_pos (by linarith)]
      linarith
  nlinarith

/-- **C101**: with norm `peak` and an even number of pixels on some axis no cell has the value one: every cell
is at most one half to the power of the squared ratio of pixel size and width on this axis. -/
theorem C101_peak_even (fwhm pix : NArr ℝ) (side : Option (NArr ℝ)) (au : Option (List (Option String)))
    (hf : ∀ f ∈ fwhm.vals, 0 < f)
    (hs : (psfSide fwhm.vals side).length = fwhm.vals.length)
    (hp : (lengths fwhm.vals.length pix.vals).length = fwhm.vals.length)
    (hw : ∀ w ∈ lengths fwhm.vals.length pix.vals, 0 < w)
    (hmin : ∀ (i : ℕ) (s w : ℝ), (psfSide fwhm.vals side)[i]? = some s →
      (lengths fwhm.vals.length pix.vals)[i]? = some w → (1 + 1 / 20) * w < s)
    (hau : ∀ l, au = some l → l.length = fwhm.vals.length) :
    ∃ g t, psf fwhm pix side au "peak" = .ok g ∧ g.grid = some t ∧
      ∀ (i n : ℕ) (f w : ℝ), g.nPix[i]? = some n → n % 2 = 0 → fwhm.vals[i]? = some f →
        (lengths fwhm.vals.length pix.vals)[i]? = some w →
        (1 / 2 : ℝ) ^ ((w / f) ^ 2) < 1 ∧ ∀ c, Valid g.nPix c → cell t c 0 ≤ (1 / 2 : ℝ) ^ ((w / f) ^ 2) := by
  obtain ⟨g, t, h1, h2, h3, h4⟩ := C101_cells fwhm pix side au "peak" (Or.inr rfl) hf hs hp hw hmin hau
  refine ⟨g, t, h1, h2, ?_⟩
  intro i n f w hn heven hfi hwi
  have hf0 := hf f (List.mem_of_getElem? hfi)
  have hw0 := hw w (List.mem_of_getElem? hwi)
  refine ⟨?_, ?_⟩
  · apply Real.rpow_lt_one (by norm_num) (by norm_num)
    positivity
  · intro c hc
    rw [h4 c hc, if_neg (by decide), div_one]
    have hi : i < c.length := by
      rw [hc.length]; exact (List.getElem?_eq_some_iff.1 hn).1
    have hpl := place_get g.nPix (lengths fwhm.vals.length pix.vals) c i n c[i] w hn hwi
      (List.getElem?_eq_getElem hi)
    refine le_trans (bells_le _ _ i f _ hfi hpl) ?_
    have hb : bell f (w / 2) = (1 / 2 : ℝ) ^ ((w / f) ^ 2) := by
      unfold bell
      congr 2
      ring
    rw [← hb]
    apply bell_anti f _ _ hf0
    rw [abs_of_pos (by positivity)]
    exact middle_even n _ w hw0 heven

theorem middle_odd (n : ℕ) (w : ℝ) (hn : n % 2 = 1) : middle n w (n / 2) = 0 := by
  obtain ⟨m, rfl⟩ : ∃ m, n = 2 * m + 1 := ⟨n / 2, by omega⟩
  have : (2 * m + 1) / 2 = m := by omega
  rw [this]
  unfold middle
  push_cast
  ring

theorem bells_center : ∀ (ns : List ℕ) (ws fs : List ℝ), (∀ n ∈ ns, n % 2 = 1) →
    bells fs (place ns ws (ns.map (· / 2))) = 1
  | [], ws, fs, h => by simp [bells, place]
  | n :: ns, [], fs, h => by simp [bells, place]
  | n :: ns, w :: ws, [], h => by simp [bells]
  | n :: ns, w :: ws, f :: fs, h => by
    have ih := bells_center ns ws fs (fun m hm => h m (List.mem_cons_of_mem _ hm))
    simp only [bells] at ih
    simp only [List.map_cons, place, bells, List.zipWith_cons_cons, List.prod_cons, ih, mul_one]
    rw [middle_odd n w (h n (by simp))]
    simp [bell]

theorem valid_half : ∀ ns : List ℕ, (∀ n ∈ ns, n % 2 = 1) → Valid ns (ns.map (· / 2))
  | [], _ => List.Forall₂.nil
  | n :: ns, h => by
    have := h n (by simp)
    exact valid_cons.2 ⟨(by show n / 2 < n; omega), valid_half ns (fun m hm => h m (List.mem_cons_of_mem _ hm))⟩

/-- **C101**, part that holds: with norm `peak` and odd numbers of pixels the cell in the middle has the value
one, and all others are at most one. -/
theorem C101_peak_partial (fwhm pix : NArr ℝ) (side : Option (NArr ℝ)) (au : Option (List (Option String)))
    (hf : ∀ f ∈ fwhm.vals, 0 < f)
    (hs : (psfSide fwhm.vals side).length = fwhm.vals.length)
    (hp : (lengths fwhm.vals.length pix.vals).length = fwhm.vals.length)
    (hw : ∀ w ∈ lengths fwhm.vals.length pix.vals, 0 < w)
    (hmin : ∀ (i : ℕ) (s w : ℝ), (psfSide fwhm.vals side)[i]? = some s →
      (lengths fwhm.vals.length pix.vals)[i]? = some w → (1 + 1 / 20) * w < s)
    (hau : ∀ l, au = some l → l.length = fwhm.vals.length) :
    ∃ g t, psf fwhm pix side au "peak" = .ok g ∧ g.grid = some t ∧
      ((∀ n ∈ g.nPix, n % 2 = 1) → cell t (g.nPix.map (· / 2)) 0 = 1) ∧
      ∀ c, Valid g.nPix c → cell t c 0 ≤ 1 := by
  obtain ⟨g, t, h1, h2, h3, h4⟩ := C101_cells fwhm pix side au "peak" (Or.inr rfl) hf hs hp hw hmin hau
  refine ⟨g, t, h1, h2, ?_, ?_⟩
  · intro hodd
    rw [h4 _ (valid_half _ hodd), if_neg (by decide), div_one, bells_center _ _ _ hodd]
  · intro c hc
    rw [h4 _ hc, if_neg (by decide), div_one]
    exact bells_le.bells_le_one _ _

/-! ## Refusals -/

/-- **C101**: other norms and numbers of side lengths or pixel sizes that do not fit are refused. -/
theorem C101_refused (fwhm pix : NArr ℝ) (side : Option (NArr ℝ)) (au : Option (List (Option String)))
    (norm : String)
    (h : (norm ≠ "area" ∧ norm ≠ "peak") ∨ (lengths fwhm.vals.length pix.vals).length ≠ fwhm.vals.length ∨
      (psfSide fwhm.vals side).length ≠ fwhm.vals.length) :
    psf fwhm pix side au norm = .error .valueError := by
  have spread : ∀ (a : NArr ℝ) (d : ℕ), (lengths d a.vals).length ≠ d → psfSpread a d = .error .valueError := by
    intro a d hd
    unfold psfSpread
    unfold lengths at hd
    obtain ⟨isInt, vals⟩ := a
    match vals, hd with
    | [x], hd => simp at hd
    | [], hd =>
      have : ¬ 0 = d := by simpa using hd
      simp [this]
    | x :: y :: l, hd =>
      have : ¬ (x :: y :: l).length = d := by simpa using hd
      simp only [this, if_false]
  have total : ∀ (a : NArr ℝ) (d : ℕ), psfSpread a d = .error .valueError ∨ ∃ b, psfSpread a d = .ok b := by
    intro a d
    by_cases hd : (lengths d a.vals).length = d
    · obtain ⟨b, hb⟩ := psfSpread_ok a d hd
      exact Or.inr ⟨_, hb⟩
    · exact Or.inl (spread a d hd)
  unfold psf
  by_cases hn : norm ≠ "area" ∧ norm ≠ "peak"
  · rw [if_pos hn]
  · rw [if_neg hn]
    rcases h with h | h | h
    · exact absurd h hn
    · cases side with
      | none => simp only [psfSides, spread pix _ h]
      | some s =>
        simp only [psfSides]
        rcases total s fwhm.vals.length with e | ⟨b, e⟩
        · simp only [e]
        · simp only [e, spread pix _ h]
    · cases side with
      | none => simp [psfSide] at h
      | some s => simp only [psfSides, spread s _ h]

/-- **C101**: a pixel of at least 6/1.05 widths makes the default fail. -/
theorem C101_coarse_fails (fwhm pix : NArr ℝ) (au : Option (List (Option String))) (norm : String)
    (hp : (lengths fwhm.vals.length pix.vals).length = fwhm.vals.length)
    (hw : ∀ w ∈ lengths fwhm.vals.length pix.vals, 0 < w) (i : ℕ) (f w : ℝ) (h1 : fwhm.vals[i]? = some f)
    (h2 : (lengths fwhm.vals.length pix.vals)[i]? = some w) (h : 6 * f ≤ (1 + 1 / 20) * w) :
    ∃ e, psf fwhm pix none au norm = .error e := by
  obtain ⟨b2, hP⟩ := psfSpread_ok pix fwhm.vals.length hp
  unfold psf
  split
  · exact ⟨_, rfl⟩
  · obtain ⟨e, he⟩ := C17_single_cell_fails (V := ℝ) 1 ⟨false, List.replicate fwhm.vals.length (0 : ℝ)⟩
      ⟨fwhm.isInt, fwhm.vals.map (fun f => 6 * f)⟩ ⟨b2, lengths fwhm.vals.length pix.vals⟩ au none
      (by simp) (by simpa using hp) hw i (6 * f) w (by simp [h1]) h2 h
    simp only [psfSides, hP, he]
    exact ⟨_, rfl⟩

/-- **C101** as documented: the peak value is one. -/
def C101_full : Prop :=
  ∀ (fwhm pix : NArr ℝ), (∀ f ∈ fwhm.vals, 0 < f) → (∀ w ∈ pix.vals, 0 < w) →
    ∀ g t, psf fwhm pix none none "peak" = .ok g → g.grid = some t → ∃ c, Valid g.nPix c ∧ cell t c 0 = 1

theorem C101_full_false : ¬ C101_full := by
  intro h
  have hmin : ∀ (i : ℕ) (s w : ℝ), (psfSide [(1 : ℝ)] none)[i]? = some s →
      (lengths 1 [(1 : ℝ)])[i]? = some w → (1 + 1 / 20) * w < s := by
    intro i s w h1 h2
    match i, h1, h2 with
    | 0, h1, h2 =>
      simp [psfSide] at h1
      simp [lengths] at h2
      subst h1 h2
      norm_num
    | i + 1, h1, h2 => simp [psfSide] at h1
  have hw : ∀ w ∈ lengths 1 [(1 : ℝ)], 0 < w := by simp [lengths]
  obtain ⟨g, t, h1, h2, h3⟩ := C101_peak_even ⟨false, [1]⟩ ⟨false, [1]⟩ none none (by simp) (by simp [psfSide])
    (by simp [lengths]) hw hmin (by simp)
  obtain ⟨g', t', h4, h5, h6, -⟩ := C101_cells ⟨false, [1]⟩ ⟨false, [1]⟩ none none "peak" (Or.inr rfl) (by simp)
    (by simp [psfSide]) (by simp [lengths]) hw hmin (by simp)
  rw [h1] at h4
  simp only [Except.ok.injEq] at h4
  subst h4
  obtain ⟨n, ha, b1, b2⟩ := h6.axis 0 1 6 (by simp [lengths]) (by simp [psfSide])
  have hn : n = 6 := by
    have c1 : (n : ℝ) < 7 := by linarith
    have c2 : (5 : ℝ) < n := by linarith
    have c1' : n < 7 := by exact_mod_cast c1
    have c2' : 5 < n := by exact_mod_cast c2
    omega
  subst hn
  obtain ⟨hlt, hle⟩ := h3 0 6 1 1 ha.nPix (by norm_num) (by simp) (by simp [lengths])
  obtain ⟨c, hc, h1'⟩ := h _ _ (by simp) (by simp) g t h1 h2
  have := hle c hc
  linarith

/-- Two dimensions, widths 1 and 2, pixels 1/2: 12 and 24 cells. -/
example : ∃ g t, psf ⟨false, [1, 2]⟩ ⟨false, [1 / 2]⟩ = .ok g ∧ g.grid = some t ∧ total g t 0 = 1 := by
  obtain ⟨g, t, h1, h2, h3, -⟩ := C101_area ⟨false, [1, 2]⟩ ⟨false, [1 / 2]⟩ none none (by simp) (by simp [psfSide])
    (by simp [lengths]) (by simp [lengths]) (by
      intro i s w h1 h2
      match i, h1, h2 with
      | 0, h1, h2 => simp [psfSide] at h1; simp [lengths] at h2; subst h1 h2; norm_num
      | 1, h1, h2 => simp [psfSide] at h1; simp [lengths] at h2; subst h1 h2; norm_num
      | i + 2, h1, h2 => simp [psfSide] at h1) (by simp)
  exact ⟨g, t, h1, h2, h3⟩

end Verif.Map
