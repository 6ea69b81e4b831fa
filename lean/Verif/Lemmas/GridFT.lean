import Verif.Model.GridFT
import Verif.Lemmas.NdArray
import Mathlib.RingTheory.RootsOfUnity.Complex
import Mathlib.Algebra.Field.GeomSum
import Mathlib.Algebra.BigOperators.Field

/-!
# Lemmas about transforms along axes
-/

set_option linter.unusedSectionVars false

namespace Verif.Map

/-! ## Equal arrays -/

theorem valid_set {shape i : List ℕ} (h : Valid shape i) (ax j : ℕ) (hj : j < shape.getD ax 0) :
    Valid shape (i.set ax j) := by
  unfold Valid at *
  induction h generalizing ax with
  | nil => exact .nil
  | cons h hs ih =>
    cases ax with
    | zero => exact .cons (by simpa using hj) hs
    | succ ax => exact .cons h (ih ax (by simpa using hj))

theorem valid_getD {shape i : List ℕ} (h : Valid shape i) (ax : ℕ) (hax : ax < shape.length) :
    i.getD ax 0 < shape.getD ax 0 := by
  unfold Valid at *
  induction h generalizing ax with
  | nil => simp at hax
  | cons h hs ih =>
    cases ax with
    | zero => simpa using h
    | succ ax => simpa using ih ax (by simpa using hax)

/-! ## One axis -/

theorem along_same {a b : Arr ℂ} (h : a.Same b) (M : ℕ → ℕ → ℕ → ℂ) (ax : ℕ) :
    (a.along M ax).Same (b.along M ax) := by
  refine ⟨h.1, ?_⟩
  intro i hi
  unfold Arr.along
  simp only
  rw [← h.1]
  refine Finset.sum_congr rfl (fun j hj => ?_)
  rw [h.2 _ (valid_set hi ax j (Finset.mem_range.1 hj))]

theorem scale_same {a b : Arr ℂ} (h : a.Same b) (c : ℝ) : (a.scale c).Same (b.scale c) :=
  ⟨h.1, fun i hi => by
    show (c : ℂ) * a.get i = c * b.get i
    rw [h.2 i hi]⟩

theorem along_comm (a : Arr ℂ) (M N : ℕ → ℕ → ℕ → ℂ) (x y : ℕ) (hxy : x ≠ y) :
    (a.along M x).along N y = (a.along N y).along M x := by
  unfold Arr.along
  simp only [Arr.mk.injEq, true_and]
  funext i
  simp only [Finset.mul_sum]
  rw [Finset.sum_comm]
  refine Finset.sum_congr rfl (fun j _ => Finset.sum_congr rfl (fun k _ => ?_))
  have e1 : (i.set y k).getD x 0 = i.getD x 0 := by
    simp only [List.getD_eq_getElem?_getD]
    rw [List.getElem?_set_ne (Ne.symm hxy)]
  have e2 : (i.set x j).getD y 0 = i.getD y 0 := by
    simp only [List.getD_eq_getElem?_getD]
    rw [List.getElem?_set_ne hxy]
  rw [e1, e2, List.set_comm _ _ (Ne.symm hxy)]
  ring

theorem along_scale (a : Arr ℂ) (M : ℕ → ℕ → ℕ → ℂ) (ax : ℕ) (c : ℝ) :
    (a.scale c).along M ax = (a.along M ax).scale c := by
  unfold Arr.along Arr.scale
  simp only [Arr.mk.injEq, true_and]
  funext i
  rw [Finset.mul_sum]
  refine Finset.sum_congr rfl (fun j _ => ?_)
  ring

theorem scale_scale (a : Arr ℂ) (c d : ℝ) : (a.scale c).scale d = a.scale (d * c) := by
  unfold Arr.scale
  simp only [Arr.mk.injEq, true_and]
  funext i
  push_cast
  ring

theorem scale_one (a : Arr ℂ) : a.scale 1 = a := by
  unfold Arr.scale
  simp

/-- Two matrices one after the other. -/
theorem along_along (a : Arr ℂ) (M N : ℕ → ℕ → ℕ → ℂ) (x : ℕ) (hx : x < a.shape.length) (i : List ℕ)
    (hi : i.length = a.shape.length) :
    ((a.along N x).along M x).get i = ∑ l ∈ Finset.range (a.shape.getD x 0),
      (∑ j ∈ Finset.range (a.shape.getD x 0), M (a.shape.getD x 0) (i.getD x 0) j *
        N (a.shape.getD x 0) j l) * a.get (i.set x l) := by
  show ∑ j ∈ Finset.range (a.shape.getD x 0), M (a.shape.getD x 0) (i.getD x 0) j *
    (∑ l ∈ Finset.range (a.shape.getD x 0), N (a.shape.getD x 0) ((i.set x j).getD x 0) l *
      a.get ((i.set x j).set x l)) = _
  simp only [Finset.mul_sum, Finset.sum_mul]
  rw [Finset.sum_comm]
  refine Finset.sum_congr rfl (fun l _ => Finset.sum_congr rfl (fun j _ => ?_))
  have : (i.set x j).getD x 0 = j := by
    rw [List.getD_eq_getElem?_getD, List.getElem?_set_self (by omega)]
    rfl
  rw [this, List.set_set]
  ring

/-- Matrices that are inverse to each other undo each other. -/
theorem along_inverse (a : Arr ℂ) (M N : ℕ → ℕ → ℕ → ℂ) (x : ℕ) (hx : x < a.shape.length)
    (h : ∀ n k l, 0 < n → k < n → l < n →
      ∑ j ∈ Finset.range n, M n k j * N n j l = if k = l then 1 else 0) :
    ((a.along N x).along M x).Same a := by
  refine ⟨rfl, ?_⟩
  intro i hi
  have hi : Valid a.shape i := hi
  rw [along_along a M N x hx i hi.length_eq]
  have hk := valid_getD hi x hx
  rw [Finset.sum_congr rfl (fun l hl => by
    rw [h _ (i.getD x 0) l (by omega) hk (Finset.mem_range.1 hl), ite_mul, one_mul, zero_mul])]
  rw [Finset.sum_ite_eq, if_pos (Finset.mem_range.2 hk)]
  congr 1
  have hlt : x < i.length := by rw [hi.length_eq]; exact hx
  rw [List.getD_eq_getElem _ _ hlt, List.set_getElem_self]

/-! ## The discrete Fourier transform -/

theorem sum_roots (n : ℕ) (hn : 0 < n) (d : ℤ) (h : ¬ (n : ℤ) ∣ d) :
    ∑ j ∈ Finset.range n, Complex.exp (2 * Real.pi * Complex.I * d * j / n) = 0 := by
  set z := Complex.exp (2 * Real.pi * Complex.I * d / n) with hz
  have hn' : (n : ℂ) ≠ 0 := by exact_mod_cast hn.ne'
  have hj : ∀ j : ℕ, Complex.exp (2 * Real.pi * Complex.I * d * j / n) = z ^ j := by
    intro j
    rw [hz, ← Complex.exp_nat_mul]
    congr 1
    ring
  simp only [hj]
  have hz1 : z ≠ 1 := by
    rw [hz, Ne, Complex.exp_eq_one_iff]
    rintro ⟨m, hm⟩
    apply h
    refine ⟨m, ?_⟩
    have h2 : (2 * Real.pi * Complex.I : ℂ) ≠ 0 := Complex.two_pi_I_ne_zero
    have : (d : ℂ) = n * m := by
      field_simp at hm
      have := mul_left_cancel₀ h2 (show (2 * Real.pi * Complex.I : ℂ) * d =
        (2 * Real.pi * Complex.I) * (n * m) by
          field_simp
          linear_combination hm)
      exact this
    exact_mod_cast this
  rw [geom_sum_eq hz1]
  have : z ^ n = 1 := by
    rw [hz, ← Complex.exp_nat_mul, Complex.exp_eq_one_iff]
    exact ⟨d, by field_simp⟩
  rw [this, sub_self, zero_div]

theorem ifft_fft (n k l : ℕ) (hn : 0 < n) (hk : k < n) (hl : l < n) :
    ∑ j ∈ Finset.range n, ifftM n k j * fftM n j l = if k = l then 1 else 0 := by
  have hn' : (n : ℂ) ≠ 0 := by exact_mod_cast hn.ne'
  have e : ∀ j : ℕ, ifftM n k j * fftM n j l =
      Complex.exp (2 * Real.pi * Complex.I * (((k : ℤ) - l : ℤ) : ℂ) * j / n) / n := by
    intro j
    unfold ifftM fftM
    rw [div_mul_eq_mul_div, ← Complex.exp_add]
    congr 2
    push_cast
    ring
  simp only [e]
  rw [← Finset.sum_div]
  by_cases h : k = l
  · subst h
    simp [hn']
  · rw [if_neg h, sum_roots n hn, zero_div]
    intro hd
    apply h
    have := Int.eq_zero_of_abs_lt_dvd hd (by rw [abs_lt]; omega)
    omega

theorem fft_ifft (n k l : ℕ) (hn : 0 < n) (hk : k < n) (hl : l < n) :
    ∑ j ∈ Finset.range n, fftM n k j * ifftM n j l = if k = l then 1 else 0 := by
  have := ifft_fft n l k hn hl hk
  rw [show (if k = l then (1 : ℂ) else 0) = if l = k then 1 else 0 by
    by_cases h : k = l
    · subst h; rfl
    · rw [if_neg h, if_neg (Ne.symm h)], ← this]
  refine Finset.sum_congr rfl (fun j _ => ?_)
  unfold ifftM fftM
  rw [mul_div_assoc', div_mul_eq_mul_div, mul_comm]
  congr 3 <;> ring

/-! ## Rolls -/

/-- The matrix of a roll. -/
noncomputable def rollM (s : ℕ → ℤ) (n k j : ℕ) : ℂ :=
  if j = (((k : ℤ) - s n) % (n : ℤ)).toNat then 1 else 0

theorem emod_lt' (n : ℕ) (hn : 0 < n) (z : ℤ) : (z % (n : ℤ)).toNat < n := by
  have := Int.emod_lt_of_pos z (show (0 : ℤ) < n by exact_mod_cast hn)
  have := Int.emod_nonneg z (show (n : ℤ) ≠ 0 by omega)
  omega

theorem roll_along (a : Arr ℂ) (s : ℕ → ℤ) (ax : ℕ) (hax : ax < a.shape.length) :
    (a.roll (s (a.shape.getD ax 0)) ax).Same (a.along (rollM s) ax) := by
  refine ⟨rfl, ?_⟩
  intro i hi
  have hi : Valid a.shape i := hi
  have hk := valid_getD hi ax hax
  unfold Arr.roll Arr.along
  simp only [rollM, ite_mul, one_mul, zero_mul]
  rw [Finset.sum_ite_eq', if_pos]
  rw [Finset.mem_range]
  exact emod_lt' _ (by omega) _

theorem rollM_inverse (s : ℕ → ℤ) (n k l : ℕ) (hn : 0 < n) (hk : k < n) (hl : l < n) :
    ∑ j ∈ Finset.range n, rollM s n k j * rollM (fun m => -s m) n j l = if k = l then 1 else 0 := by
  simp only [rollM, ite_mul, one_mul, zero_mul]
  rw [Finset.sum_ite_eq', if_pos (Finset.mem_range.2 (emod_lt' n hn _))]
  have h0 := Int.emod_nonneg ((k : ℤ) - s n) (show (n : ℤ) ≠ 0 by omega)
  have : ((((((k : ℤ) - s n) % n).toNat : ℕ) : ℤ) - -s n) % n = k := by
    rw [Int.toNat_of_nonneg h0, sub_neg_eq_add, Int.emod_add_emod, sub_add_cancel]
    exact Int.emod_eq_of_lt (by omega) (by omega)
  rw [this]
  simp only [Int.toNat_natCast]
  by_cases h : k = l
  · subst h; rfl
  · rw [if_neg h, if_neg (Ne.symm h)]

/-! ## Several axes -/

/-- One operation along each of these axes, in this order. -/
noncomputable def chain (M : ℕ → ℕ → ℕ → ℂ) (l : List ℕ) (a : Arr ℂ) : Arr ℂ :=
  l.foldl (fun b i => b.along M i) a

theorem chain_shape (M : ℕ → ℕ → ℕ → ℂ) (l : List ℕ) (a : Arr ℂ) :
    (chain M l a).shape = a.shape := by
  induction l generalizing a with
  | nil => rfl
  | cons x l ih => exact (ih _).trans rfl

theorem chain_same {a b : Arr ℂ} (h : a.Same b) (M : ℕ → ℕ → ℕ → ℂ) (l : List ℕ) :
    (chain M l a).Same (chain M l b) := by
  induction l generalizing a b with
  | nil => exact h
  | cons x l ih => exact ih (along_same h M x)

theorem chain_scale (a : Arr ℂ) (M : ℕ → ℕ → ℕ → ℂ) (l : List ℕ) (c : ℝ) :
    chain M l (a.scale c) = (chain M l a).scale c := by
  induction l generalizing a with
  | nil => rfl
  | cons x l ih =>
    show chain M l ((a.scale c).along M x) = (chain M l (a.along M x)).scale c
    rw [along_scale, ih]

/-- The matrices are inverse to each other. -/
def Inverse (M N : ℕ → ℕ → ℕ → ℂ) : Prop :=
  ∀ n k l, 0 < n → k < n → l < n →
    ∑ j ∈ Finset.range n, M n k j * N n j l = if k = l then 1 else 0

theorem chain_push (M N : ℕ → ℕ → ℕ → ℂ) (h1 : Inverse M N) (h2 : Inverse N M) (l : List ℕ)
    (x : ℕ) (a : Arr ℂ) (hx : x < a.shape.length) :
    ((chain N l a).along M x).Same (chain N l (a.along M x)) := by
  induction l generalizing a with
  | nil => exact .refl _
  | cons y l ih =>
    have key : ((a.along N y).along M x).Same ((a.along M x).along N y) := by
      by_cases hxy : x = y
      · subst hxy
        exact (along_inverse a M N x hx h1).trans (along_inverse a N M x hx h2).symm
      · rw [along_comm _ _ _ _ _ (Ne.symm hxy)]
        exact .refl _
    exact (ih (a.along N y) hx).trans (chain_same key N l)

theorem chain_cancel (M N : ℕ → ℕ → ℕ → ℂ) (h1 : Inverse M N) (h2 : Inverse N M) (l : List ℕ)
    (a : Arr ℂ) (hl : ∀ x ∈ l, x < a.shape.length) :
    (chain M l (chain N l a)).Same a := by
  induction l generalizing a with
  | nil => exact .refl _
  | cons x l ih =>
    have hx := hl x (List.mem_cons_self ..)
    have hl' : ∀ y ∈ l, y < a.shape.length := fun y hy => hl y (List.mem_cons_of_mem _ hy)
    have e1 := chain_push M N h1 h2 l x (a.along N x) hx
    have e2 := chain_same (along_inverse a M N x hx h1) N l
    exact (chain_same (e1.trans e2) M l).trans (ih a hl')

/-- Operations of one kind along several axes: their order does not matter. -/
theorem chain_perm (M : ℕ → ℕ → ℕ → ℂ) {l m : List ℕ} (h : l.Perm m) (a : Arr ℂ) :
    chain M l a = chain M m a := by
  induction h generalizing a with
  | nil => rfl
  | cons x _ ih => exact ih _
  | swap x y l =>
    show chain M l ((a.along M y).along M x) = chain M l ((a.along M x).along M y)
    by_cases hxy : x = y
    · subst hxy; rfl
    · rw [along_comm _ _ _ _ _ (Ne.symm hxy)]
  | trans _ _ ih1 ih2 => exact (ih1 a).trans (ih2 a)

theorem fftn_chain (a : Arr ℂ) (l : List ℕ) : a.fftn l = chain fftM l a := by
  rw [chain_perm fftM (List.reverse_perm l).symm]
  unfold Arr.fftn chain
  rw [List.foldl_reverse]

theorem ifftn_chain (a : Arr ℂ) (l : List ℕ) : a.ifftn l = chain ifftM l a := by
  rw [chain_perm ifftM (List.reverse_perm l).symm]
  unfold Arr.ifftn chain
  rw [List.foldl_reverse]

/-- The shift by half the number of cells. -/
def half (n : ℕ) : ℤ := ((n / 2 : ℕ) : ℤ)

theorem fftshift_chain (a : Arr ℂ) (l : List ℕ) (hl : ∀ x ∈ l, x < a.shape.length) :
    (a.fftshift l).Same (chain (rollM half) l a) := by
  induction l generalizing a with
  | nil => exact .refl _
  | cons x l ih =>
    have h1 : (a.roll ((a.shape.getD x 0 / 2 : ℕ) : ℤ) x).Same (a.along (rollM half) x) :=
      roll_along a half x (hl x (List.mem_cons_self ..))
    exact (ih (a.roll ((a.shape.getD x 0 / 2 : ℕ) : ℤ) x)
      (fun y hy => hl y (List.mem_cons_of_mem _ hy))).trans (chain_same h1 _ l)

theorem ifftshift_chain (a : Arr ℂ) (l : List ℕ) (hl : ∀ x ∈ l, x < a.shape.length) :
    (a.ifftshift l).Same (chain (rollM (fun n => -half n)) l a) := by
  induction l generalizing a with
  | nil => exact .refl _
  | cons x l ih =>
    have h1 : (a.roll (-((a.shape.getD x 0 / 2 : ℕ) : ℤ)) x).Same
        (a.along (rollM (fun n => -half n)) x) :=
      roll_along a (fun n => -half n) x (hl x (List.mem_cons_self ..))
    exact (ih (a.roll (-((a.shape.getD x 0 / 2 : ℕ) : ℤ)) x)
      (fun y hy => hl y (List.mem_cons_of_mem _ hy))).trans (chain_same h1 _ l)

theorem roll_inv1 : Inverse (rollM half) (rollM (fun n => -half n)) := rollM_inverse half

theorem roll_inv2 : Inverse (rollM (fun n => -half n)) (rollM half) := by
  have := rollM_inverse (fun n => -half n)
  simp only [neg_neg] at this
  exact this

theorem fft_inv1 : Inverse ifftM fftM := ifft_fft

theorem fft_inv2 : Inverse fftM ifftM := fft_ifft

/-! ## The two halves of `fourier_transform` -/

/-- The factor of a half. -/
noncomputable def factor (pix : List ℝ) (ax : List ℕ) (normalize : Bool) : ℝ :=
  if normalize then pixProd pix ax else 1

theorem forward_chain (a : Arr ℂ) (pix : List ℝ) (l : List ℕ) (nz : Bool)
    (hl : ∀ x ∈ l, x < a.shape.length) :
    (forwardPart a pix l nz).Same
      ((chain (rollM half) l (chain fftM l a)).scale (factor pix l nz)) := by
  have h := fftshift_chain (a.fftn l) l (by rw [fftn_chain, chain_shape]; exact hl)
  rw [fftn_chain] at h
  unfold forwardPart factor
  rw [fftn_chain]
  cases nz with
  | true => exact scale_same h _
  | false => simp only [Bool.false_eq_true, if_false]; rw [scale_one]; exact h

theorem backward_chain (a : Arr ℂ) (pix : List ℝ) (l : List ℕ) (nz : Bool)
    (hl : ∀ x ∈ l, x < a.shape.length) :
    (backwardPart a pix l nz).Same
      ((chain ifftM l (chain (rollM (fun n => -half n)) l a)).scale (1 / factor pix l nz)) := by
  have h := chain_same (ifftshift_chain a l hl) ifftM l
  unfold backwardPart factor
  rw [ifftn_chain]
  cases nz with
  | true => exact scale_same h _
  | false => simp only [Bool.false_eq_true, if_false]; rw [div_one, scale_one]; exact h

theorem forward_shape (a : Arr ℂ) (pix : List ℝ) (l : List ℕ) (nz : Bool)
    (hl : ∀ x ∈ l, x < a.shape.length) : (forwardPart a pix l nz).shape = a.shape := by
  rw [(forward_chain a pix l nz hl).1]
  exact (chain_shape _ _ _).trans (chain_shape _ _ _)

theorem backward_shape (a : Arr ℂ) (pix : List ℝ) (l : List ℕ) (nz : Bool)
    (hl : ∀ x ∈ l, x < a.shape.length) : (backwardPart a pix l nz).shape = a.shape := by
  rw [(backward_chain a pix l nz hl).1]
  exact (chain_shape _ _ _).trans (chain_shape _ _ _)

theorem factor_ne (pix : List ℝ) (l : List ℕ) (nz : Bool) (hp : ∀ x ∈ l, pix.getD x 0 ≠ 0) :
    factor pix l nz ≠ 0 := by
  unfold factor
  cases nz with
  | false => simp
  | true =>
    simp only [if_true]
    unfold pixProd
    induction l with
    | nil => simp
    | cons x l ih =>
      rw [List.map_cons, List.prod_cons]
      exact mul_ne_zero (hp x (List.mem_cons_self ..))
        (ih (fun y hy => hp y (List.mem_cons_of_mem _ hy)))

theorem forward_same {a b : Arr ℂ} (h : a.Same b) (pix : List ℝ) (l : List ℕ) (nz : Bool)
    (hl : ∀ x ∈ l, x < a.shape.length) :
    (forwardPart a pix l nz).Same (forwardPart b pix l nz) :=
  (forward_chain a pix l nz hl).trans ((scale_same (chain_same (chain_same h _ l) _ l) _).trans
    (forward_chain b pix l nz (by rw [← h.1]; exact hl)).symm)

theorem backward_same {a b : Arr ℂ} (h : a.Same b) (pix : List ℝ) (l : List ℕ) (nz : Bool)
    (hl : ∀ x ∈ l, x < a.shape.length) :
    (backwardPart a pix l nz).Same (backwardPart b pix l nz) :=
  (backward_chain a pix l nz hl).trans ((scale_same (chain_same (chain_same h _ l) _ l) _).trans
    (backward_chain b pix l nz (by rw [← h.1]; exact hl)).symm)

theorem backward_forward (a : Arr ℂ) (pix : List ℝ) (l : List ℕ) (nz : Bool)
    (hl : ∀ x ∈ l, x < a.shape.length) (hp : ∀ x ∈ l, pix.getD x 0 ≠ 0) :
    (backwardPart (forwardPart a pix l nz) pix l nz).Same a := by
  have hf := factor_ne pix l nz hp
  refine (backward_same (forward_chain a pix l nz hl) pix l nz
    (by rw [forward_shape a pix l nz hl]; exact hl)).trans ?_
  refine (backward_chain _ pix l nz (by
    show ∀ x ∈ l, x < (chain _ l (chain _ l a)).shape.length
    rw [chain_shape, chain_shape]; exact hl)).trans ?_
  rw [chain_scale, chain_scale, scale_scale, one_div, inv_mul_cancel₀ hf, scale_one]
  refine (chain_same (chain_cancel _ _ roll_inv2 roll_inv1 l _ ?_) ifftM l).trans ?_
  · rw [chain_shape]; exact hl
  · exact chain_cancel _ _ fft_inv1 fft_inv2 l a hl

theorem forward_backward (a : Arr ℂ) (pix : List ℝ) (l : List ℕ) (nz : Bool)
    (hl : ∀ x ∈ l, x < a.shape.length) (hp : ∀ x ∈ l, pix.getD x 0 ≠ 0) :
    (forwardPart (backwardPart a pix l nz) pix l nz).Same a := by
  have hf := factor_ne pix l nz hp
  refine (forward_same (backward_chain a pix l nz hl) pix l nz
    (by rw [backward_shape a pix l nz hl]; exact hl)).trans ?_
  refine (forward_chain _ pix l nz (by
    show ∀ x ∈ l, x < (chain _ l (chain _ l a)).shape.length
    rw [chain_shape, chain_shape]; exact hl)).trans ?_
  rw [chain_scale, chain_scale, scale_scale, one_div, mul_inv_cancel₀ hf, scale_one]
  refine (chain_same (chain_cancel _ _ fft_inv2 fft_inv1 l _ ?_) (rollM half) l).trans ?_
  · rw [chain_shape]; exact hl
  · exact chain_cancel _ _ roll_inv1 roll_inv2 l a hl

theorem factor_perm (pix : List ℝ) (nz : Bool) {l m : List ℕ} (h : l.Perm m) :
    factor pix l nz = factor pix m nz := by
  unfold factor pixProd
  rw [(h.map _).prod_eq]

theorem forward_perm (a : Arr ℂ) (pix : List ℝ) (nz : Bool) {l m : List ℕ} (h : l.Perm m)
    (hl : ∀ x ∈ l, x < a.shape.length) :
    (forwardPart a pix l nz).Same (forwardPart a pix m nz) := by
  refine (forward_chain a pix l nz hl).trans ?_
  rw [chain_perm fftM h, chain_perm (rollM half) h, factor_perm pix nz h]
  exact (forward_chain a pix m nz (fun x hx => hl x (h.mem_iff.2 hx))).symm

theorem backward_perm (a : Arr ℂ) (pix : List ℝ) (nz : Bool) {l m : List ℕ} (h : l.Perm m)
    (hl : ∀ x ∈ l, x < a.shape.length) :
    (backwardPart a pix l nz).Same (backwardPart a pix m nz) := by
  refine (backward_chain a pix l nz hl).trans ?_
  rw [chain_perm ifftM h, chain_perm (rollM (fun n => -half n)) h, factor_perm pix nz h]
  exact (backward_chain a pix m nz (fun x hx => hl x (h.mem_iff.2 hx))).symm

/-- A matrix along one axis commutes with matrices along others. -/
theorem chain_comm_axis (M N : ℕ → ℕ → ℕ → ℂ) (x : ℕ) (l : List ℕ) (hx : x ∉ l) (a : Arr ℂ) :
    (chain M l a).along N x = chain M l (a.along N x) := by
  induction l generalizing a with
  | nil => rfl
  | cons y l ih =>
    have hxy : y ≠ x := fun e => hx (e ▸ List.mem_cons_self ..)
    show (chain M l (a.along M y)).along N x = chain M l ((a.along N x).along M y)
    rw [ih (fun h => hx (List.mem_cons_of_mem _ h)), along_comm a M N y x hxy]

theorem factor_cons (pix : List ℝ) (nz : Bool) (x : ℕ) (l : List ℕ) :
    factor pix (x :: l) nz = factor pix l nz * factor pix [x] nz := by
  unfold factor pixProd
  cases nz <;> simp [mul_comm]

/-- The forward half on several axes: first one, then the others. -/
theorem forward_cons (a : Arr ℂ) (pix : List ℝ) (nz : Bool) (x : ℕ) (l : List ℕ) (hxl : x ∉ l)
    (hx : x < a.shape.length) (hl : ∀ y ∈ l, y < a.shape.length) :
    (forwardPart a pix (x :: l) nz).Same (forwardPart (forwardPart a pix [x] nz) pix l nz) := by
  have hx1 : ∀ y ∈ [x], y < a.shape.length := by simpa using hx
  have hxl' : ∀ y ∈ x :: l, y < a.shape.length := by simpa using ⟨hx, hl⟩
  have s1 := forward_shape a pix [x] nz hx1
  refine (forward_chain a pix (x :: l) nz hxl').trans ?_
  refine Arr.Same.trans ?_ (forward_chain (forwardPart a pix [x] nz) pix l nz
    (by rw [s1]; exact hl)).symm
  refine Arr.Same.trans ?_
    (scale_same (chain_same (chain_same (forward_chain a pix [x] nz hx1).symm _ l) _ l) _)
  rw [chain_scale, chain_scale, scale_scale, ← factor_cons]
  show ((chain (rollM half) l ((chain fftM l (a.along fftM x)).along (rollM half) x)).scale
    _).Same ((chain (rollM half) l (chain fftM l ((a.along fftM x).along (rollM half) x))).scale _)
  rw [chain_comm_axis _ _ x l hxl]
  exact .refl _

/-- The backward half on several axes: first one, then the others. -/
theorem backward_cons (a : Arr ℂ) (pix : List ℝ) (nz : Bool) (x : ℕ) (l : List ℕ) (hxl : x ∉ l)
    (hx : x < a.shape.length) (hl : ∀ y ∈ l, y < a.shape.length) :
    (backwardPart a pix (x :: l) nz).Same (backwardPart (backwardPart a pix [x] nz) pix l nz) := by
  have hx1 : ∀ y ∈ [x], y < a.shape.length := by simpa using hx
  have hxl' : ∀ y ∈ x :: l, y < a.shape.length := by simpa using ⟨hx, hl⟩
  have s1 := backward_shape a pix [x] nz hx1
  refine (backward_chain a pix (x :: l) nz hxl').trans ?_
  refine Arr.Same.trans ?_ (backward_chain (backwardPart a pix [x] nz) pix l nz
    (by rw [s1]; exact hl)).symm
  refine Arr.Same.trans ?_
    (scale_same (chain_same (chain_same (backward_chain a pix [x] nz hx1).symm _ l) _ l) _)
  rw [chain_scale, chain_scale, scale_scale,
    show 1 / factor pix l nz * (1 / factor pix [x] nz) = 1 / factor pix (x :: l) nz by
      rw [factor_cons pix nz x l, one_div_mul_one_div]]
  show ((chain ifftM l ((chain (rollM fun n => -half n) l
    (a.along (rollM fun n => -half n) x)).along ifftM x)).scale _).Same
    ((chain ifftM l (chain (rollM fun n => -half n) l
      ((a.along (rollM fun n => -half n) x).along ifftM x))).scale _)
  rw [chain_comm_axis _ _ x l hxl]
  exact .refl _

/-- The backward half along one axis and the forward half along others commute. -/
theorem backward_forward_comm (a : Arr ℂ) (pix : List ℝ) (nz : Bool) (x : ℕ) (l : List ℕ)
    (hxl : x ∉ l) (hx : x < a.shape.length) (hl : ∀ y ∈ l, y < a.shape.length) :
    (backwardPart (forwardPart a pix l nz) pix [x] nz).Same
      (forwardPart (backwardPart a pix [x] nz) pix l nz) := by
  have hx1 : ∀ y ∈ [x], y < a.shape.length := by simpa using hx
  have s1 := forward_shape a pix l nz hl
  have s2 := backward_shape a pix [x] nz hx1
  refine (backward_same (forward_chain a pix l nz hl) pix [x] nz (by rw [s1]; exact hx1)).trans ?_
  refine (backward_chain _ pix [x] nz ?_).trans ?_
  · intro y hy
    have : y < a.shape.length := hx1 y hy
    show y < (chain _ _ _).shape.length
    rw [chain_shape, chain_shape]; exact this
  refine Arr.Same.trans ?_
    (forward_same (backward_chain a pix [x] nz hx1).symm pix l nz ?_)
  swap
  · intro y hy
    show y < (chain _ _ _).shape.length
    rw [chain_shape, chain_shape]; exact hl y hy
  refine Arr.Same.trans ?_ (forward_chain _ pix l nz ?_).symm
  swap
  · intro y hy
    show y < (chain _ _ _).shape.length
    rw [chain_shape, chain_shape]; exact hl y hy
  rw [chain_scale, chain_scale, scale_scale, chain_scale, chain_scale, scale_scale, mul_comm]
  show (((((chain (rollM half) l (chain fftM l a)).along (rollM fun n => -half n) x).along
    ifftM x)).scale _).Same
    ((chain (rollM half) l (chain fftM l ((a.along (rollM fun n => -half n) x).along ifftM x))).scale
      _)
  rw [chain_comm_axis _ _ x l hxl, chain_comm_axis _ _ x l hxl, chain_comm_axis _ _ x l hxl,
    chain_comm_axis _ _ x l hxl]
  exact .refl _

theorem forward_nil (a : Arr ℂ) (pix : List ℝ) (nz : Bool) : forwardPart a pix [] nz = a := by
  cases nz
  · rfl
  · exact scale_one a

theorem backward_nil (a : Arr ℂ) (pix : List ℝ) (nz : Bool) : backwardPart a pix [] nz = a := by
  cases nz
  · rfl
  · show a.scale (1 / 1) = a
    rw [one_div_one, scale_one]

/-! ## Broadcasting -/

theorem bshape_snoc (s : List ℕ) (P Q : ℕ) :
    bshape (s ++ [P]) (s ++ [Q]) = if P = Q then some (s ++ [P]) else if P = 1 then some (s ++ [Q])
      else if Q = 1 then some (s ++ [P]) else none := by
  induction s with
  | nil => simp [bshape]
  | cons x s ih =>
    simp only [List.cons_append, bshape, if_true, ih]
    split_ifs <;> rfl

theorem bshape_none (s t : List ℕ) (i n m : ℕ) (h1 : s[i]? = some n) (h2 : t[i]? = some m)
    (hn : 2 ≤ n) (hm : 2 ≤ m) (hnm : n ≠ m) : bshape s t = none := by
  induction s generalizing t i with
  | nil => simp at h1
  | cons x s ih =>
    cases t with
    | nil => simp at h2
    | cons y t =>
      cases i with
      | zero =>
        simp only [List.getElem?_cons_zero, Option.some.injEq] at h1 h2
        subst h1 h2
        unfold bshape
        rw [if_neg hnm, if_neg (by omega), if_neg (by omega)]
      | succ i =>
        simp only [List.getElem?_cons_succ] at h1 h2
        unfold bshape
        rw [ih t i h1 h2]
        split_ifs <;> rfl

theorem bindex_self (shape i : List ℕ) (h : Valid shape i) : bindex shape i = i := by
  unfold Valid at h
  unfold bindex
  induction h with
  | nil => rfl
  | @cons k n i s h _ ih =>
    simp only [List.zipWith_cons_cons, ih]
    by_cases hn : n = 1
    · rw [if_pos hn]; congr 1; omega
    · rw [if_neg hn]

end Verif.Map
