import Verif.Lemmas.GridFT
import Verif.Lemmas.GridAdd
import Verif.Spec.Spectrum
import Mathlib.Tactic.Ring
import Mathlib.Tactic.FieldSimp
import Mathlib.Tactic.LinearCombination

/-!
# Lemmas on amplitudes of waves
-/

set_option linter.unusedSectionVars false

namespace Verif.Map

open Spec
open scoped BigOperators

/-! ## Sums over cells -/

theorem sum_range_list {M : Type} [AddCommMonoid M] (n : ℕ) (f : ℕ → M) :
    ((List.range n).map f).sum = ∑ j ∈ Finset.range n, f j := by
  induction n with
  | zero => simp
  | succ n ih => rw [List.range_succ, Finset.sum_range_succ]; simp [ih]

theorem cells_sum_cons {M : Type} [AddCommMonoid M] (n : ℕ) (s : List ℕ) (f : List ℕ → M) :
    ((allCells (n :: s)).map f).sum =
      ∑ j ∈ Finset.range n, ((allCells s).map (fun c => f (j :: c))).sum := by
  rw [← sum_range_list]
  show ((List.flatMap _ _).map f).sum = _
  induction List.range n with
  | nil => rfl
  | cons x l ih =>
    simp only [List.flatMap_cons, List.map_append, List.sum_append, List.map_cons, List.sum_cons, ih,
      List.map_map, Function.comp_def]

theorem cells_mul {R : Type} [NonUnitalNonAssocSemiring R] (l : List (List ℕ)) (f : List ℕ → R)
    (c : R) : (l.map (fun j => c * f j)).sum = c * (l.map f).sum := by
  induction l with
  | nil => simp
  | cons x l ih => simp only [List.map_cons, List.sum_cons, ih, mul_add]

theorem cells_swap {M : Type} [AddCommMonoid M] (n : ℕ) (l : List (List ℕ)) (f : ℕ → List ℕ → M) :
    (l.map (fun c => ∑ j ∈ Finset.range n, f j c)).sum =
      ∑ j ∈ Finset.range n, (l.map (f j)).sum := by
  induction l with
  | nil => simp
  | cons x l ih => simp only [List.map_cons, List.sum_cons, ih, Finset.sum_add_distrib]

/-! ## One factor for each axis -/

/-- The share of position `j` in position `k` along one axis. -/
noncomputable def axisShare (nz : Bool) (x : WaveAxis) (k j : ℕ) : ℂ :=
  if x.used then (if nz then (x.w : ℂ) else 1) *
    Complex.exp (-(2 * Real.pi * Complex.I * ((x.fs.getD k 0 * (j * x.w) : ℝ) : ℂ)))
  else if k = j then 1 else 0

/-- The share of cell `j` in position `k`. -/
noncomputable def share (nz : Bool) : List WaveAxis → List ℕ → List ℕ → ℂ
  | x :: axs, k :: ks, j :: js => axisShare nz x k j * share nz axs ks js
  | _, _, _ => 1

theorem cellSize_cons (x : WaveAxis) (axs : List WaveAxis) :
    cellSize (x :: axs) = (if x.used then x.w else 1) * cellSize axs := by
  unfold cellSize
  cases h : x.used <;> simp [h]

theorem modes_cons (x : WaveAxis) (axs : List WaveAxis) :
    modes (x :: axs) = (if x.used then x.n else 1) * modes axs := by
  unfold modes
  cases h : x.used <;> simp [h]

theorem share_eq (nz : Bool) (axs : List WaveAxis) (k j : List ℕ) (hk : k.length = axs.length)
    (hj : j.length = axs.length) :
    share nz axs k j = if AgreeElsewhere axs k j = true then
      (if nz then (cellSize axs : ℂ) else 1) *
        Complex.exp (-(2 * Real.pi * Complex.I * phase axs k j)) else 0 := by
  induction axs generalizing k j with
  | nil =>
    cases k <;> cases j <;> simp_all [share, AgreeElsewhere, phase, cellSize]
  | cons x axs ih =>
    match k, j, hk, hj with
    | k :: ks, j :: js, hk, hj =>
      simp only [share]
      rw [ih ks js (by simpa using hk) (by simpa using hj), cellSize_cons]
      simp only [AgreeElsewhere, phase, axisShare]
      by_cases hu : x.used = true
      · simp only [hu, Bool.true_or, Bool.true_and, if_true]
        by_cases ha : AgreeElsewhere axs ks js = true
        · rw [if_pos ha, if_pos ha]
          cases nz with
          | true =>
            simp only [if_true]
            push_cast
            rw [mul_add, neg_add, Complex.exp_add]
            ring
          | false =>
            simp only [Bool.false_eq_true, if_false]
            push_cast
            rw [mul_add, neg_add, Complex.exp_add]
            ring
        · rw [if_neg ha, if_neg ha, mul_zero]
      · rw [Bool.not_eq_true] at hu
        simp only [hu, Bool.false_or, Bool.false_eq_true, if_false, zero_add, one_mul]
        by_cases hkj : k = j
        · subst hkj
          simp
        · simp [hkj]

/-- The amplitude as a sum of shares of all cells. -/
noncomputable def amp (nz : Bool) (axs : List WaveAxis) (v : List ℕ → ℂ) (k : List ℕ) : ℂ :=
  ((allCells (axs.map (·.n))).map (fun j => share nz axs k j * v j)).sum

theorem waveCells_length (axs : List WaveAxis) (j : List ℕ) (hj : j ∈ allCells (axs.map (·.n))) :
    j.length = axs.length := by
  have := List.Forall₂.length_eq ((mem_allCells _ _).1 hj)
  simpa using this

theorem amp_eq (nz : Bool) (axs : List WaveAxis) (v : List ℕ → ℂ) (k : List ℕ)
    (hk : k.length = axs.length) : amplitude axs nz v k = amp nz axs v k := by
  unfold amplitude amp
  rw [← cells_mul]
  have key : ∀ l : List (List ℕ), (∀ j ∈ l, j.length = axs.length) →
      ((l.filter (AgreeElsewhere axs k)).map (fun j =>
        (if nz = true then (cellSize axs : ℂ) else 1) *
        (Complex.exp (-(2 * Real.pi * Complex.I * phase axs k j)) * v j))).sum =
      (l.map (fun j => share nz axs k j * v j)).sum := by
    intro l hl
    induction l with
    | nil => rfl
    | cons j l ih =>
      have ih := ih (fun i hi => hl i (List.mem_cons_of_mem _ hi))
      rw [List.map_cons, List.sum_cons, share_eq nz axs k j hk (hl j (List.mem_cons_self ..))]
      by_cases ha : AgreeElsewhere axs k j = true
      · rw [List.filter_cons_of_pos ha, List.map_cons, List.sum_cons, ih, if_pos ha]
        ring
      · rw [List.filter_cons_of_neg ha, ih, if_neg ha, zero_mul, zero_add]
  exact key _ (waveCells_length axs)

theorem amp_cons (nz : Bool) (x : WaveAxis) (axs : List WaveAxis) (v : List ℕ → ℂ) (k : ℕ)
    (ks : List ℕ) :
    amp nz (x :: axs) v (k :: ks) =
      amp nz axs (fun c => ∑ j ∈ Finset.range x.n, axisShare nz x k j * v (j :: c)) ks := by
  unfold amp
  rw [List.map_cons, cells_sum_cons]
  simp only [share]
  rw [← cells_swap]
  congr 1
  apply List.map_congr_left
  intro c _
  rw [Finset.mul_sum]
  exact Finset.sum_congr rfl (fun j _ => by ring)

theorem amp_cons' (nz : Bool) (x : WaveAxis) (axs : List WaveAxis) (v : List ℕ → ℂ) (k : ℕ)
    (ks : List ℕ) :
    amp nz (x :: axs) v (k :: ks) =
      ∑ j ∈ Finset.range x.n, axisShare nz x k j * amp nz axs (fun c => v (j :: c)) ks := by
  unfold amp
  rw [List.map_cons, cells_sum_cons]
  refine Finset.sum_congr rfl (fun j _ => ?_)
  rw [← cells_mul]
  congr 1
  apply List.map_congr_left
  intro c _
  simp only [share]
  ring

theorem amp_congr (nz : Bool) (axs : List WaveAxis) (v v' : List ℕ → ℂ) (k : List ℕ)
    (h : ∀ j ∈ allCells (axs.map (·.n)), v j = v' j) : amp nz axs v k = amp nz axs v' k := by
  unfold amp
  congr 1
  apply List.map_congr_left
  intro j hj
  rw [h j hj]

/-! ## The transform -/

/-- One operation along each of these axes, each with its own matrix. -/
noncomputable def chainD (M : ℕ → ℕ → ℕ → ℕ → ℂ) (l : List ℕ) (a : Arr ℂ) : Arr ℂ :=
  l.foldl (fun b i => b.along (M i) i) a

theorem chainD_cons (M : ℕ → ℕ → ℕ → ℕ → ℂ) (x : ℕ) (l : List ℕ) (a : Arr ℂ) :
    chainD M (x :: l) a = chainD M l (a.along (M x) x) := rfl

theorem chainD_shape (M : ℕ → ℕ → ℕ → ℕ → ℂ) (l : List ℕ) (a : Arr ℂ) :
    (chainD M l a).shape = a.shape := by
  induction l generalizing a with
  | nil => rfl
  | cons x l ih => exact (ih _).trans rfl

theorem chainD_same {a b : Arr ℂ} (h : a.Same b) (M : ℕ → ℕ → ℕ → ℕ → ℂ) (l : List ℕ) :
    (chainD M l a).Same (chainD M l b) := by
  induction l generalizing a b with
  | nil => exact h
  | cons x l ih => exact ih (along_same h (M x) x)

/-- The order of different axes does not matter. -/
theorem chainD_perm (M : ℕ → ℕ → ℕ → ℕ → ℂ) {l m : List ℕ} (h : l.Perm m) (a : Arr ℂ) :
    chainD M l a = chainD M m a := by
  induction h generalizing a with
  | nil => rfl
  | cons x _ ih => exact ih _
  | swap x y l =>
    show chainD M l ((a.along (M y) y).along (M x) x) = chainD M l ((a.along (M x) x).along (M y) y)
    by_cases hxy : x = y
    · subst hxy; rfl
    · rw [along_comm a (M x) (M y) x y hxy]
  | trans _ _ ih1 ih2 => exact (ih1 a).trans (ih2 a)

/-- The axes with the unit matrix may be left out. -/
theorem chainD_unit (M : ℕ → ℕ → ℕ → ℕ → ℂ) (l : List ℕ) (a : Arr ℂ)
    (hl : ∀ x ∈ l, x < a.shape.length)
    (hM : ∀ x ∈ l, ∀ n k j, M x n k j = if k = j then 1 else 0) : (chainD M l a).Same a := by
  induction l generalizing a with
  | nil => exact .refl _
  | cons x l ih =>
    rw [chainD_cons]
    have h1 : (a.along (M x) x).Same a := by
      refine ⟨rfl, ?_⟩
      intro i hi
      have hi : Valid a.shape i := hi
      have hx := hl x (List.mem_cons_self ..)
      unfold Arr.along
      simp only [hM x (List.mem_cons_self ..), ite_mul, one_mul, zero_mul]
      rw [Finset.sum_ite_eq, if_pos (Finset.mem_range.2 (valid_getD hi x hx))]
      congr 1
      have hxi : x < i.length := by rw [List.Forall₂.length_eq hi]; exact hx
      rw [List.getD_eq_getElem?_getD, List.getElem?_eq_getElem hxi]
      exact List.set_getElem_self hxi
    exact (chainD_same h1 M l).trans (ih a (fun y hy => hl y (List.mem_cons_of_mem _ hy))
      (fun y hy => hM y (List.mem_cons_of_mem _ hy)))

/-- The part of an array at one position of the first axis. -/
def Arr.part (a : Arr ℂ) (k : ℕ) : Arr ℂ := ⟨a.shape.tail, fun i => a.get (k :: i)⟩

theorem chainD_part (M : ℕ → ℕ → ℕ → ℕ → ℂ) (l : List ℕ) (a : Arr ℂ) (k : ℕ) :
    (chainD M (l.map (· + 1)) a).part k = chainD (fun x => M (x + 1)) l (a.part k) := by
  induction l generalizing a with
  | nil => rfl
  | cons x l ih =>
    rw [List.map_cons, chainD_cons, chainD_cons, ih]
    congr 1
    unfold Arr.part Arr.along
    simp only [Arr.mk.injEq, true_and]
    funext i
    have hs : a.shape.tail.getD x 0 = a.shape.getD (x + 1) 0 := by cases a.shape <;> simp
    rw [hs]
    rfl

/-- Operations along all axes but the last: a sum over all cells. -/
theorem chainD_sum (nz : Bool) (axs : List WaveAxis) (P : ℕ) (q : ℕ) (a : Arr ℂ)
    (M : ℕ → ℕ → ℕ → ℕ → ℂ) (hs : a.shape = axs.map (·.n) ++ [P])
    (hM : ∀ d x, axs[d]? = some x → ∀ k j, M d x.n k j = axisShare nz x k j)
    (k : List ℕ) (hk : k.length = axs.length) :
    (chainD M (List.range axs.length) a).get (k ++ [q]) = amp nz axs (fun j => cell a j q) k := by
  induction axs generalizing a M k with
  | nil =>
    cases k with
    | nil => simp [chainD, amp, allCells, share, cell]
    | cons _ _ => simp at hk
  | cons x axs ih =>
    match k, hk with
    | k :: ks, hk =>
      rw [List.length_cons, List.range_succ_eq_map, chainD_cons]
      show ((chainD M ((List.range axs.length).map (· + 1)) (a.along (M 0) 0)).part k).get
        (ks ++ [q]) = _
      have hs0 : a.shape.getD 0 0 = x.n := by rw [hs]; rfl
      rw [chainD_part, ih ((a.along (M 0) 0).part k) (fun d => M (d + 1))
        (by show a.shape.tail = _; rw [hs]; rfl) (fun d y hy => hM (d + 1) y (by simpa using hy)) ks
        (by simpa using hk), amp_cons]
      congr 1
      funext c
      show (∑ j ∈ Finset.range (a.shape.getD 0 0), M 0 (a.shape.getD 0 0) k j * a.get (j :: (c ++ [q]))) = _
      rw [hs0]
      refine Finset.sum_congr rfl (fun j _ => ?_)
      rw [hM 0 x rfl]
      rfl

/-! ## One axis -/

/-- The axis has at least one cell and lists the frequencies of a discrete transform. -/
def GoodAxis (x : WaveAxis) : Prop := 0 < x.n ∧ 0 < x.w ∧ x.fs = freqs x.n x.w

theorem good_freq {x : WaveAxis} (hx : GoodAxis x) (k j : ℕ) (hk : k < x.n) :
    x.fs.getD k 0 * (j * x.w) = ((k : ℝ) - ((x.n / 2 : ℕ) : ℝ)) * j / x.n := by
  obtain ⟨hn, hw, hf⟩ := hx
  rw [hf]
  unfold freqs
  rw [List.getD_eq_getElem?_getD, List.getElem?_map, List.getElem?_range hk]
  simp only [Option.map_some, Option.getD_some]
  have : (x.n : ℝ) ≠ 0 := by exact_mod_cast hn.ne'
  field_simp

/-- One forward transform along one axis. -/
theorem forward_one (a : Arr ℂ) (pix : List ℝ) (d : ℕ) (nz : Bool) (x : WaveAxis)
    (hx : GoodAxis x) (hu : x.used = true) (hd : d < a.shape.length) (hn : a.shape.getD d 0 = x.n)
    (hw : pix.getD d 0 = x.w) (M : ℕ → ℕ → ℕ → ℂ) (hM : ∀ k j, M x.n k j = axisShare nz x k j) :
    (forwardPart a pix [d] nz).Same (a.along M d) := by
  refine (forward_chain a pix [d] nz (by simpa using hd)).trans ⟨rfl, ?_⟩
  intro i hi
  have hi : Valid a.shape i := hi
  have hk : i.getD d 0 < x.n := by rw [← hn]; exact valid_getD hi d hd
  have hilen : i.length = a.shape.length := List.Forall₂.length_eq hi
  show ((factor pix [d] nz : ℝ) : ℂ) * ((a.along fftM d).along (rollM half) d).get i = _
  have hroll := (roll_along (a.along fftM d) half d hd).2 i hi
  rw [← hroll]
  unfold Arr.roll Arr.along half
  simp only [hn]
  rw [Finset.mul_sum]
  refine Finset.sum_congr rfl (fun j _ => ?_)
  have hset : (i.set d ((((i.getD d 0 : ℕ) : ℤ) - ((x.n / 2 : ℕ) : ℤ)) % (x.n : ℤ)).toNat).getD d 0 =
      ((((i.getD d 0 : ℕ) : ℤ) - ((x.n / 2 : ℕ) : ℤ)) % (x.n : ℤ)).toNat := by
    rw [List.getD_eq_getElem?_getD, List.getElem?_set_self (by rw [hilen]; exact hd)]
    rfl
  rw [hset, List.set_set, ← mul_assoc, hM]
  congr 1
  unfold axisShare
  rw [if_pos hu, good_freq hx _ _ hk]
  have hfac : ((factor pix [d] nz : ℝ) : ℂ) = if nz = true then (x.w : ℂ) else 1 := by
    unfold factor pixProd
    cases nz with
    | true => simp only [if_true, List.map_cons, List.map_nil, List.prod_cons, List.prod_nil, mul_one]; rw [hw]
    | false => simp
  rw [hfac]
  congr 1
  unfold fftM
  generalize i.getD d 0 = k at *
  have hn0 : (x.n : ℂ) ≠ 0 := by exact_mod_cast hx.1.ne'
  set z : ℤ := ((k : ℤ) - ((x.n / 2 : ℕ) : ℤ)) with hz
  have hzr : (((z % (x.n : ℤ)).toNat : ℕ) : ℂ) = (z : ℂ) - x.n * ((z / x.n : ℤ) : ℂ) := by
    have h0 := Int.emod_nonneg z (show (x.n : ℤ) ≠ 0 by have := hx.1; omega)
    have h1 : (((z % (x.n : ℤ)).toNat : ℕ) : ℤ) = z - x.n * (z / x.n) := by
      rw [Int.toNat_of_nonneg h0, Int.emod_def]
    exact_mod_cast congrArg (Int.cast : ℤ → ℂ) h1
  rw [hzr, Complex.exp_eq_exp_iff_exists_int]
  refine ⟨(z / x.n) * j, ?_⟩
  have hzc : (z : ℂ) = (k : ℂ) - ((x.n / 2 : ℕ) : ℂ) := by
    rw [hz, Int.cast_sub, Int.cast_natCast, Int.cast_natCast]
  rw [hzc]
  push_cast
  field_simp
  ring

/-- The forward half along several different axes. -/
theorem forward_chainD (pix : List ℝ) (nz : Bool) (axs : List WaveAxis) (P : ℕ)
    (hgood : ∀ x ∈ axs, GoodAxis x)
    (hw : ∀ d x, axs[d]? = some x → pix.getD d 0 = x.w)
    (M : ℕ → ℕ → ℕ → ℕ → ℂ) (hM : ∀ d x, axs[d]? = some x → ∀ k j, M d x.n k j = axisShare nz x k j)
    (l : List ℕ) (hnd : l.Nodup) (hl : ∀ d ∈ l, ∃ x, axs[d]? = some x ∧ x.used = true)
    (a : Arr ℂ) (hs : a.shape = axs.map (·.n) ++ [P]) :
    (forwardPart a pix l nz).Same (chainD M l a) := by
  induction l generalizing a with
  | nil => rw [forward_nil]; exact .refl _
  | cons d l ih =>
    rw [List.nodup_cons] at hnd
    have hlt : ∀ d ∈ l, d < a.shape.length := by
      intro e he
      obtain ⟨y, hy, -⟩ := hl e (List.mem_cons_of_mem _ he)
      rw [List.getElem?_eq_some_iff] at hy
      obtain ⟨hy, -⟩ := hy
      rw [hs]; simp; omega
    obtain ⟨x, hx, hu⟩ := hl d (List.mem_cons_self ..)
    have hdl : d < axs.length := by
      rw [List.getElem?_eq_some_iff] at hx; exact hx.1
    have hd : d < a.shape.length := by rw [hs]; simp; omega
    have hn : a.shape.getD d 0 = x.n := by
      rw [hs, List.getD_eq_getElem?_getD, List.getElem?_append_left (by simpa using hdl),
        List.getElem?_map, hx]
      rfl
    have h1 := forward_one a pix d nz x (hgood x (List.mem_of_getElem? hx)) hu hd hn (hw d x hx)
      (M d) (hM d x hx)
    refine (forward_cons a pix nz d l hnd.1 hd hlt).trans ?_
    refine (forward_same h1 pix l nz (by rw [h1.1]; exact hlt)).trans ?_
    exact ih hnd.2 (fun e he => hl e (List.mem_cons_of_mem _ he)) (a.along (M d) d) hs

end Verif.Map
