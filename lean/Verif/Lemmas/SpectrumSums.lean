import Verif.Lemmas.Spectrum
import Verif.Lemmas.GridAdd

/-!
# Lemmas on amplitudes of waves: Parseval's theorem, translations, opposite frequencies
-/

set_option linter.unusedSectionVars false

namespace Verif.Map

open Spec
open scoped BigOperators

theorem conj_wave (r : ℝ) :
    (starRingEnd ℂ) (Complex.exp (-(2 * Real.pi * Complex.I * r))) =
      Complex.exp (2 * Real.pi * Complex.I * r) := by
  rw [← Complex.exp_conj]
  congr 1
  simp only [map_neg, map_mul, Complex.conj_ofReal, Complex.conj_I]
  rw [show (starRingEnd ℂ) 2 = 2 from Complex.conj_ofNat 2]
  ring

theorem normSq_wave (r : ℝ) : Complex.normSq (Complex.exp (-(2 * Real.pi * Complex.I * r))) = 1 := by
  have h := Complex.mul_conj (Complex.exp (-(2 * Real.pi * Complex.I * r)))
  rw [conj_wave, ← Complex.exp_add, neg_add_cancel, Complex.exp_zero] at h
  exact_mod_cast h.symm

/-! ## Parseval's theorem -/

theorem orthogonal (n : ℕ) (hn : 0 < n) (j l : ℕ) (hj : j < n) (hl : l < n) :
    ∑ k ∈ Finset.range n,
      Complex.exp (-(2 * Real.pi * Complex.I * ((((k : ℝ) - ((n / 2 : ℕ) : ℝ)) * j / n : ℝ) : ℂ))) *
      (starRingEnd ℂ) (Complex.exp
        (-(2 * Real.pi * Complex.I * ((((k : ℝ) - ((n / 2 : ℕ) : ℝ)) * l / n : ℝ) : ℂ)))) =
      if j = l then (n : ℂ) else 0 := by
  have hn' : (n : ℂ) ≠ 0 := by exact_mod_cast hn.ne'
  have e : ∀ k : ℕ,
      Complex.exp (-(2 * Real.pi * Complex.I * ((((k : ℝ) - ((n / 2 : ℕ) : ℝ)) * j / n : ℝ) : ℂ))) *
      (starRingEnd ℂ) (Complex.exp
        (-(2 * Real.pi * Complex.I * ((((k : ℝ) - ((n / 2 : ℕ) : ℝ)) * l / n : ℝ) : ℂ)))) =
      Complex.exp (2 * Real.pi * Complex.I * ((n / 2 : ℕ) : ℂ) * ((j : ℂ) - l) / n) *
        Complex.exp (2 * Real.pi * Complex.I * (((l : ℤ) - j : ℤ) : ℂ) * k / n) := by
    intro k
    rw [conj_wave, ← Complex.exp_add, ← Complex.exp_add]
    congr 1
    push_cast
    field_simp
    ring
  simp only [e]
  rw [← Finset.mul_sum]
  by_cases h : j = l
  · subst h
    simp
  · rw [if_neg h, sum_roots n hn, mul_zero]
    intro hd
    apply h
    have := Int.eq_zero_of_abs_lt_dvd hd (by rw [abs_lt]; omega)
    omega

/-- The factor by which one axis raises the sum of squares. -/
noncomputable def axisGain (nz : Bool) (x : WaveAxis) : ℝ :=
  if x.used then x.n * (if nz then x.w else 1) ^ 2 else 1

theorem axis_parseval (nz : Bool) (x : WaveAxis) (hx : GoodAxis x) (v : ℕ → ℂ) :
    ∑ k ∈ Finset.range x.n, Complex.normSq (∑ j ∈ Finset.range x.n, axisShare nz x k j * v j) =
      axisGain nz x * ∑ j ∈ Finset.range x.n, Complex.normSq (v j) := by
  by_cases hu : x.used = true
  · have e : ∀ k ∈ Finset.range x.n, ∀ j, axisShare nz x k j =
        ((if nz = true then x.w else 1 : ℝ) : ℂ) * Complex.exp
          (-(2 * Real.pi * Complex.I * ((((k : ℝ) - ((x.n / 2 : ℕ) : ℝ)) * j / x.n : ℝ) : ℂ))) := by
      intro k hk j
      unfold axisShare
      rw [if_pos hu, good_freq hx _ _ (Finset.mem_range.1 hk)]
      cases nz <;> simp
    have hc : (∑ k ∈ Finset.range x.n,
        ((Complex.normSq (∑ j ∈ Finset.range x.n, axisShare nz x k j * v j) : ℝ) : ℂ)) =
        (axisGain nz x : ℂ) * ∑ j ∈ Finset.range x.n, ((Complex.normSq (v j) : ℝ) : ℂ) := by
      have h1 : ∀ k ∈ Finset.range x.n,
          ((Complex.normSq (∑ j ∈ Finset.range x.n, axisShare nz x k j * v j) : ℝ) : ℂ) =
          ∑ j ∈ Finset.range x.n, ∑ l ∈ Finset.range x.n,
            ((if nz = true then x.w else 1 : ℝ) : ℂ) ^ 2 * (v j * (starRingEnd ℂ) (v l)) *
            (Complex.exp (-(2 * Real.pi * Complex.I *
              ((((k : ℝ) - ((x.n / 2 : ℕ) : ℝ)) * j / x.n : ℝ) : ℂ))) *
            (starRingEnd ℂ) (Complex.exp (-(2 * Real.pi * Complex.I *
              ((((k : ℝ) - ((x.n / 2 : ℕ) : ℝ)) * l / x.n : ℝ) : ℂ))))) := by
        intro k hk
        rw [← Complex.mul_conj, map_sum, Finset.sum_mul_sum]
        refine Finset.sum_congr rfl (fun j _ => Finset.sum_congr rfl (fun l _ => ?_))
        rw [e k hk, e k hk, map_mul, map_mul, Complex.conj_ofReal]
        ring
      rw [Finset.sum_congr rfl h1, Finset.sum_comm, Finset.mul_sum]
      refine Finset.sum_congr rfl (fun j hj => ?_)
      rw [Finset.sum_comm]
      simp only [← Finset.mul_sum]
      have h2 : ∀ l ∈ Finset.range x.n,
          ((if nz = true then x.w else 1 : ℝ) : ℂ) ^ 2 * (v j * (starRingEnd ℂ) (v l)) *
          (∑ k ∈ Finset.range x.n, Complex.exp (-(2 * Real.pi * Complex.I *
              ((((k : ℝ) - ((x.n / 2 : ℕ) : ℝ)) * j / x.n : ℝ) : ℂ))) *
            (starRingEnd ℂ) (Complex.exp (-(2 * Real.pi * Complex.I *
              ((((k : ℝ) - ((x.n / 2 : ℕ) : ℝ)) * l / x.n : ℝ) : ℂ))))) =
          if j = l then ((if nz = true then x.w else 1 : ℝ) : ℂ) ^ 2 *
            (v j * (starRingEnd ℂ) (v l)) * x.n else 0 := by
        intro l hl
        rw [orthogonal x.n hx.1 j l (Finset.mem_range.1 hj) (Finset.mem_range.1 hl)]
        by_cases h : j = l
        · rw [if_pos h, if_pos h]
        · rw [if_neg h, if_neg h, mul_zero]
      rw [Finset.sum_congr rfl h2, Finset.sum_ite_eq, if_pos hj, Complex.mul_conj]
      unfold axisGain
      rw [if_pos hu]
      push_cast
      ring
    exact_mod_cast hc
  · unfold axisGain axisShare
    simp only [if_neg hu, ite_mul, one_mul, zero_mul]
    refine Finset.sum_congr rfl (fun k hk => ?_)
    rw [Finset.sum_ite_eq, if_pos hk]

theorem amp_parseval (nz : Bool) (axs : List WaveAxis) (hg : ∀ x ∈ axs, GoodAxis x)
    (v : List ℕ → ℂ) :
    ((allCells (axs.map (·.n))).map (fun k => Complex.normSq (amp nz axs v k))).sum =
      (axs.map (axisGain nz)).prod *
        ((allCells (axs.map (·.n))).map (fun j => Complex.normSq (v j))).sum := by
  induction axs generalizing v with
  | nil => simp [amp, allCells, share]
  | cons x axs ih =>
    have ih := ih (fun y hy => hg y (List.mem_cons_of_mem _ hy))
    rw [List.map_cons, cells_sum_cons, cells_sum_cons, List.map_cons, List.prod_cons]
    simp only [amp_cons, ih]
    rw [← Finset.mul_sum, mul_comm (axisGain nz x), mul_assoc, ← cells_swap,
      ← cells_swap]
    congr 1
    rw [← cells_mul]
    congr 1
    apply List.map_congr_left
    intro c _
    exact axis_parseval nz x (hg x (List.mem_cons_self ..)) (fun j => v (j :: c))

theorem gain_prod (nz : Bool) (axs : List WaveAxis) :
    (axs.map (axisGain nz)).prod =
      modes axs * (if nz then cellSize axs else 1) ^ 2 := by
  induction axs with
  | nil => cases nz <;> simp [modes, cellSize]
  | cons x axs ih =>
    rw [List.map_cons, List.prod_cons, ih, modes_cons, cellSize_cons]
    unfold axisGain
    by_cases hu : x.used = true
    · simp only [hu, if_true]
      cases nz
      · simp
      · simp only [if_true]
        push_cast
        ring
    · rw [Bool.not_eq_true] at hu
      simp [hu]

/-! ## Translations -/

theorem sum_moved {M : Type} [AddCommMonoid M] (n s : ℕ) (f : ℕ → M) :
    ∑ j ∈ Finset.range n, f ((j + s) % n) = ∑ j ∈ Finset.range n, f j := by
  rcases Nat.eq_zero_or_pos n with rfl | hn
  · simp
  have hmaps : Set.MapsTo (fun j => (j + s) % n) (Finset.range n : Set ℕ) (Finset.range n : Set ℕ) :=
    fun j _ => by simpa using Nat.mod_lt _ hn
  have hinj : Set.InjOn (fun j => (j + s) % n) (Finset.range n : Set ℕ) := by
    intro i hi j hj h
    have hi : i < n := by simpa using hi
    have hj : j < n := by simpa using hj
    have h : (i + s) ≡ (j + s) [MOD n] := h
    have h := Nat.ModEq.add_right_cancel' s h
    unfold Nat.ModEq at h
    rwa [Nat.mod_eq_of_lt hi, Nat.mod_eq_of_lt hj] at h
  exact Finset.sum_nbij _ hmaps hinj
    (Finset.surjOn_of_injOn_of_card_le _ hmaps hinj le_rfl) (fun _ _ => rfl)

theorem cells_moved {M : Type} [AddCommMonoid M] (shape s : List ℕ) (hs : s.length = shape.length)
    (f : List ℕ → M) :
    ((allCells shape).map (fun j => f (moved shape s j))).sum = ((allCells shape).map f).sum := by
  induction shape generalizing s f with
  | nil =>
    cases s with
    | nil => rfl
    | cons _ _ => simp at hs
  | cons n shape ih =>
    match s, hs with
    | s :: ss, hs =>
      rw [cells_sum_cons, cells_sum_cons]
      simp only [moved]
      rw [← sum_moved n s (fun j => ((allCells shape).map (fun c => f (j :: c))).sum)]
      refine Finset.sum_congr rfl (fun j _ => ?_)
      exact ih ss (by simpa using hs) (fun c => f ((j + s) % n :: c))

theorem axisShare_moved (nz : Bool) (x : WaveAxis) (hx : GoodAxis x) (k j s : ℕ) (hk : k < x.n)
    (hj : j < x.n) (hs : x.used = false → s = 0) :
    ∃ r : ℝ, axisShare nz x k ((j + s) % x.n) =
        Complex.exp (-(2 * Real.pi * Complex.I * r)) * axisShare nz x k j ∧
      r = if x.used then x.fs.getD k 0 * (s * x.w) else 0 := by
  refine ⟨_, ?_, rfl⟩
  by_cases hu : x.used = true
  · unfold axisShare
    simp only [if_pos hu]
    rw [good_freq hx _ _ hk, good_freq hx _ _ hk, good_freq hx _ _ hk, mul_left_comm]
    congr 1
    rw [← Complex.exp_add, Complex.exp_eq_exp_iff_exists_int]
    refine ⟨((k : ℤ) - ((x.n / 2 : ℕ) : ℤ)) * (((j + s) / x.n : ℕ) : ℤ), ?_⟩
    have hn0 : (x.n : ℂ) ≠ 0 := by exact_mod_cast hx.1.ne'
    have hmod : (((j + s) % x.n : ℕ) : ℂ) = (j : ℂ) + s - x.n * (((j + s) / x.n : ℕ) : ℂ) := by
      have h := Nat.mod_add_div (j + s) x.n
      have h := congrArg (Nat.cast : ℕ → ℂ) h
      push_cast at h ⊢
      linear_combination h
    generalize (j + s) / x.n = m at *
    generalize x.n / 2 = h at *
    push_cast
    rw [hmod]
    field_simp
    ring
  · have hs0 := hs (by simpa using hu)
    subst hs0
    unfold axisShare
    rw [Nat.add_zero, Nat.mod_eq_of_lt hj]
    simp [hu]

theorem share_moved (nz : Bool) (axs : List WaveAxis) (hg : ∀ x ∈ axs, GoodAxis x) (k s : List ℕ)
    (hk : k ∈ allCells (axs.map (·.n))) (hs : s.length = axs.length)
    (hz : ∀ d x, axs[d]? = some x → x.used = false → s.getD d 0 = 0) :
    ∀ j ∈ allCells (axs.map (·.n)), share nz axs k (moved (axs.map (·.n)) s j) =
      Complex.exp (-(2 * Real.pi * Complex.I * phase axs k s)) * share nz axs k j := by
  rw [mem_allCells] at hk
  induction axs generalizing k s with
  | nil =>
    intro j _
    cases k <;> cases j <;> cases s <;> simp [share, moved, phase]
  | cons x axs ih =>
    intro j hj
    rw [mem_allCells] at hj
    cases hk with
    | @cons k _ ks _ hk1 hk2 =>
    cases hj with
    | @cons j _ js _ hj1 hj2 =>
    match s, hs with
    | s :: ss, hs =>
      obtain ⟨r, h1, h2⟩ := axisShare_moved nz x (hg x (List.mem_cons_self ..)) k j s hk1 hj1
        (fun hu => by simpa using hz 0 x rfl hu)
      have ih := ih (fun y hy => hg y (List.mem_cons_of_mem _ hy)) ks ss hk2 (by simpa using hs)
        (fun d y hy hu => by simpa using hz (d + 1) y (by simpa using hy) hu) js
        ((mem_allCells _ _).2 hj2)
      simp only [List.map_cons, moved, share, phase]
      rw [h1, ih, ← h2]
      push_cast
      rw [mul_add, neg_add, Complex.exp_add]
      ring

theorem amp_moved (nz : Bool) (axs : List WaveAxis) (hg : ∀ x ∈ axs, GoodAxis x) (k s : List ℕ)
    (hk : k ∈ allCells (axs.map (·.n))) (hs : s.length = axs.length)
    (hz : ∀ d x, axs[d]? = some x → x.used = false → s.getD d 0 = 0) (v v' : List ℕ → ℂ)
    (h : Moved (axs.map (·.n)) s v v') :
    amp nz axs v' k = Complex.exp (-(2 * Real.pi * Complex.I * phase axs k s)) * amp nz axs v k := by
  unfold amp
  rw [← cells_moved (axs.map (·.n)) s (by simpa using hs) (fun j => share nz axs k j * v' j),
    ← cells_mul]
  congr 1
  apply List.map_congr_left
  intro j hj
  rw [share_moved nz axs hg k s hk hs hz j hj, h j hj]
  ring

/-! ## Opposite frequencies -/

theorem share_opposite (nz : Bool) (axs : List WaveAxis) (k l j : List ℕ) (h : Opposite axs k l) :
    share nz axs l j = (starRingEnd ℂ) (share nz axs k j) := by
  induction axs generalizing k l j with
  | nil => simp [share]
  | cons x axs ih =>
    match k, l, h with
    | k :: ks, l :: ls, h =>
      cases j with
      | nil => simp [share]
      | cons j js =>
        obtain ⟨h1, h2⟩ := h
        simp only [share]
        rw [ih ks ls js h2, map_mul]
        congr 1
        unfold axisShare
        by_cases hu : x.used = true
        · simp only [if_pos hu] at h1 ⊢
          rw [h1, map_mul, conj_wave]
          congr 1
          · cases nz <;> simp
          · congr 1
            push_cast
            ring
        · simp only [if_neg hu] at h1 ⊢
          rw [h1]
          by_cases hkj : k = j <;> simp [hkj]

theorem amp_opposite (nz : Bool) (axs : List WaveAxis) (k l : List ℕ) (h : Opposite axs k l)
    (v : List ℕ → ℂ) (hv : ∀ j ∈ allCells (axs.map (·.n)), (starRingEnd ℂ) (v j) = v j) :
    amp nz axs v l = (starRingEnd ℂ) (amp nz axs v k) := by
  unfold amp
  rw [map_list_sum, List.map_map]
  congr 1
  apply List.map_congr_left
  intro j hj
  rw [Function.comp_apply, map_mul, ← share_opposite nz axs k l j h, hv j hj]

theorem amp_add (nz : Bool) (axs : List WaveAxis) (v v' : List ℕ → ℂ) (k : List ℕ) :
    amp nz axs (fun j => v j + v' j) k = amp nz axs v k + amp nz axs v' k := by
  unfold amp
  induction allCells (axs.map (·.n)) with
  | nil => simp
  | cons x l ih =>
    simp only [List.map_cons, List.sum_cons, ih]
    ring

end Verif.Map
