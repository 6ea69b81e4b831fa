import Verif.Lemmas.LumFun
import Verif.Spec.LumFun
import Mathlib.Tactic.NormNum
import Mathlib.Tactic.Positivity

/-!
# Tables of luminosity functions
-/

set_option linter.unusedSectionVars false

namespace Verif.LF

open Verif.AM (Incr)

variable {K : Type} [Field K] [LinearOrder K] [IsStrictOrderedRing K]

section table
variable (shape : K → K) (xmin dx : K) (xs : List K)

/-- The values of the luminosity function in the table. -/
def wt : List K := xs.map (cutoff xmin shape)

/-- A table as it is made. -/
structure Good : Prop where
  strict : xs.Pairwise (· < ·)
  first : xs[0]? = some xmin
  pos : ∀ x, xmin ≤ x → 0 < shape x
  dx : 0 < dx

variable {shape xmin dx xs}

theorem Good.ge (g : Good shape xmin dx xs) : ∀ x ∈ xs, xmin ≤ x := by
  intro x hx
  obtain ⟨i, hi, rfl⟩ := List.getElem_of_mem hx
  obtain ⟨h0, e⟩ := List.getElem?_eq_some_iff.1 g.first
  rcases Nat.eq_zero_or_pos i with rfl | hp
  · rw [e]
  · rw [← e]; exact (List.pairwise_iff_getElem.1 g.strict 0 i h0 hi hp).le

theorem Good.wpos (g : Good shape xmin dx xs) : ∀ y ∈ wt shape xmin xs, 0 < y := by
  intro y hy
  obtain ⟨x, hx, rfl⟩ := List.mem_map.1 hy
  unfold cutoff
  rw [if_neg (not_lt.2 (g.ge x hx))]
  exact g.pos x (g.ge x hx)

theorem Good.len (g : Good shape xmin dx xs) : 0 < xs.length := by
  obtain ⟨h0, _⟩ := List.getElem?_eq_some_iff.1 g.first
  exact h0

theorem wt_length : (wt shape xmin xs).length = xs.length := by simp [wt]

theorem Good.sum_pos (g : Good shape xmin dx xs) : 0 < (wt shape xmin xs).sum := by
  have := take_sum_lt (wt shape xmin xs) g.wpos 0 (wt shape xmin xs).length
    (by rw [wt_length]; exact g.len) (le_refl _)
  rw [← sum_eq_take] at this
  simpa using this

theorem countTable_get (i : ℕ) (x : K) (hx : xs[i]? = some x) :
    (countTable shape xmin dx xs)[i]? = some (x, ((wt shape xmin xs).drop i).sum * dx) := by
  obtain ⟨hi, _⟩ := List.getElem?_eq_some_iff.1 hx
  unfold countTable
  rw [List.getElem?_zip_eq_some]
  refine ⟨hx, ?_⟩
  have e : xs.reverse.map (cutoff xmin shape) = (wt shape xmin xs).reverse := by
    rw [List.map_reverse]; rfl
  rw [List.getElem?_map, e, tailsum_get _ i (by rw [wt_length]; exact hi)]
  rfl

theorem countTable_length : (countTable shape xmin dx xs).length = xs.length := by
  simp [countTable, cumsum_length]

theorem countTable_strict (g : Good shape xmin dx xs) : Strict1 (countTable shape xmin dx xs) := by
  have : (countTable shape xmin dx xs).map Prod.fst = xs := by
    unfold countTable
    rw [List.map_fst_zip]
    simp [cumsum_length]
  have h := g.strict
  rw [← this, List.pairwise_map] at h
  exact h

/-- The fraction below, as a table. -/
def cumTable (shape : K → K) (xmin dx : K) (xs : List K) : List (K × K) :=
  (countTable shape xmin dx xs).map
    (fun p => (p.1, -1 / ((wt shape xmin xs).sum * dx) * p.2 + 1))

theorem cumTable_get (g : Good shape xmin dx xs) (i : ℕ) (x : K) (hx : xs[i]? = some x) :
    (cumTable shape xmin dx xs)[i]? =
      some (x, ((wt shape xmin xs).take i).sum / (wt shape xmin xs).sum) := by
  unfold cumTable
  rw [List.getElem?_map, countTable_get i x hx]
  have h1 := take_sum_add_drop (wt shape xmin xs) i
  have h2 := g.sum_pos.ne'
  have h3 := g.dx.ne'
  have e : -1 / ((wt shape xmin xs).sum * dx) * (((wt shape xmin xs).drop i).sum * dx) + 1 =
      ((wt shape xmin xs).take i).sum / (wt shape xmin xs).sum := by
    have h4 : ((wt shape xmin xs).drop i).sum =
      (wt shape xmin xs).sum - ((wt shape xmin xs).take i).sum := by rw [← h1]; ring
    rw [h4]
    field_simp
    ring
  simp [e]

theorem cumTable_length : (cumTable shape xmin dx xs).length = xs.length := by
  simp [cumTable, countTable_length]

theorem cumTable_get' (g : Good shape xmin dx xs) (i : ℕ) (p : K × K)
    (h : (cumTable shape xmin dx xs)[i]? = some p) :
    ∃ x, xs[i]? = some x ∧ p = (x, ((wt shape xmin xs).take i).sum / (wt shape xmin xs).sum) := by
  obtain ⟨hi, _⟩ := List.getElem?_eq_some_iff.1 h
  rw [cumTable_length] at hi
  have hx := List.getElem?_eq_getElem hi
  refine ⟨xs[i], hx, ?_⟩
  rw [cumTable_get g i _ hx] at h
  exact (Option.some.inj h).symm

theorem cumTable_strict (g : Good shape xmin dx xs) : Strict1 (cumTable shape xmin dx xs) := by
  unfold cumTable Strict1
  rw [List.pairwise_map]
  exact countTable_strict g

theorem cumTable_incr (g : Good shape xmin dx xs) : Incr (cumTable shape xmin dx xs) := by
  unfold Incr
  rw [List.pairwise_iff_getElem]
  intro i j hi hj hij
  obtain ⟨x, hx, e1⟩ := cumTable_get' g i _ (List.getElem?_eq_getElem hi)
  obtain ⟨y, hy, e2⟩ := cumTable_get' g j _ (List.getElem?_eq_getElem hj)
  rw [e1, e2]
  constructor
  · obtain ⟨h1, rfl⟩ := List.getElem?_eq_some_iff.1 hx
    obtain ⟨h2, rfl⟩ := List.getElem?_eq_some_iff.1 hy
    exact (List.pairwise_iff_getElem.1 g.strict i j h1 h2 hij).le
  · exact div_le_div_of_nonneg_right
      (take_sum_mono _ (fun y hy => (g.wpos y hy).le) i j hij.le) g.sum_pos.le

theorem count_first (g : Good shape xmin dx xs) :
    countAbove shape xmin dx xs xmin = (wt shape xmin xs).sum * dx := by
  have := interpD_at _ (countTable_strict g) 0 _ (countTable_get 0 xmin g.first)
  simpa [countAbove] using this

theorem cdfTable_eq (g : Good shape xmin dx xs) (x : K) (hx : xmin ≤ x) :
    cdfTable shape xmin dx xs x = some (interpD (cumTable shape xmin dx xs) x) := by
  have hp : 0 < (wt shape xmin xs).sum * dx := mul_pos g.sum_pos g.dx
  unfold cdfTable
  rw [if_neg (not_lt.2 hx), count_first g, if_neg hp.ne']
  congr 1
  unfold cumTable
  have hne : countTable shape xmin dx xs ≠ [] := by
    intro h
    have := countTable_length (shape := shape) (xmin := xmin) (dx := dx) (xs := xs)
    rw [h] at this
    have := g.len
    simp_all
  rw [interpD_affine _ _ _ _ hne]
  unfold countAbove
  have h2 := g.sum_pos.ne'
  have h3 := g.dx.ne'
  field_simp
  ring

theorem cum_mem (g : Good shape xmin dx xs) :
    (cumTable shape xmin dx xs)[0]? = some (xmin, 0) := by
  have := cumTable_get g 0 xmin g.first
  simpa using this

theorem cum_fraction (g : Good shape xmin dx xs) (x : K) (hx : xmin ≤ x) :
    0 ≤ interpD (cumTable shape xmin dx xs) x ∧ interpD (cumTable shape xmin dx xs) x ≤ 1 := by
  constructor
  · have h := interpD_mono _ (cumTable_incr g) xmin x hx
    rw [interpD_at _ (cumTable_strict g) 0 _ (cum_mem g)] at h
    exact h
  · have hl : xs.length - 1 < xs.length := Nat.sub_lt g.len Nat.one_pos
    have ha := cumTable_get g (xs.length - 1) _ (List.getElem?_eq_getElem hl)
    have hle : ((wt shape xmin xs).take (xs.length - 1)).sum / (wt shape xmin xs).sum ≤ 1 := by
      rw [div_le_one g.sum_pos]
      conv => rhs; rw [sum_eq_take]
      exact take_sum_mono _ (fun y hy => (g.wpos y hy).le) _ _ (by rw [wt_length]; omega)
    refine le_trans ?_ hle
    rcases le_total x xs[xs.length - 1] with h | h
    · have := interpD_mono _ (cumTable_incr g) _ _ h
      rw [interpD_at _ (cumTable_strict g) _ _ ha] at this
      exact this
    · rw [interpD_last _ x (cumTable_strict g) _ (by rw [cumTable_length]; exact ha) h]

/-! ## Quantiles -/

theorem ys_last (g : Good shape xmin dx xs) :
    ((cumsum 0 (xs.map (cutoff xmin shape))).map (fun y => y * dx)).getLastD 1 =
      (wt shape xmin xs).sum * dx := by
  have hl : xs.length - 1 < (wt shape xmin xs).length := by rw [wt_length]; exact Nat.sub_lt g.len Nat.one_pos
  have h := cumsum_get (0 : K) (wt shape xmin xs) (xs.length - 1) hl
  have hlen : (cumsum 0 (wt shape xmin xs)).length = xs.length := by rw [cumsum_length, wt_length]
  rw [List.getLastD_eq_getLast?, List.getLast?_eq_getElem?, List.length_map]
  show (((cumsum 0 (wt shape xmin xs)).map (fun y => y * dx))[(cumsum 0 (wt shape xmin xs)).length - 1]?).getD 1 = _
  rw [hlen, List.getElem?_map, h]
  have : xs.length - 1 + 1 = (wt shape xmin xs).length := by
    rw [wt_length]; exact Nat.succ_pred_eq_of_pos g.len
  rw [this, List.take_length]
  simp

theorem quantileTable_get (g : Good shape xmin dx xs) (i : ℕ) (x : K) (hx : xs[i]? = some x) :
    (quantileTable shape xmin dx xs)[i]? =
      some (((wt shape xmin xs).take (i + 1)).sum / (wt shape xmin xs).sum, x) := by
  obtain ⟨hi, _⟩ := List.getElem?_eq_some_iff.1 hx
  unfold quantileTable
  simp only
  rw [ys_last g, List.getElem?_zip_eq_some]
  refine ⟨?_, hx⟩
  rw [List.getElem?_map, List.getElem?_map]
  have := cumsum_get (0 : K) (wt shape xmin xs) i (by rw [wt_length]; exact hi)
  show (Option.map _ (Option.map _ (cumsum 0 (wt shape xmin xs))[i]?)) = _
  rw [this]
  have h2 := g.sum_pos.ne'
  have h3 := g.dx.ne'
  simp only [Option.map_some, zero_add, Option.some.injEq]
  field_simp

theorem quantileTable_length : (quantileTable shape xmin dx xs).length = xs.length := by
  simp [quantileTable, cumsum_length]

theorem quantileTable_get' (g : Good shape xmin dx xs) (i : ℕ) (p : K × K)
    (h : (quantileTable shape xmin dx xs)[i]? = some p) :
    ∃ x, xs[i]? = some x ∧ p = (((wt shape xmin xs).take (i + 1)).sum / (wt shape xmin xs).sum, x) := by
  obtain ⟨hi, _⟩ := List.getElem?_eq_some_iff.1 h
  rw [quantileTable_length] at hi
  have hx := List.getElem?_eq_getElem hi
  refine ⟨xs[i], hx, ?_⟩
  rw [quantileTable_get g i _ hx] at h
  exact (Option.some.inj h).symm

theorem quantileTable_strict (g : Good shape xmin dx xs) : Strict1 (quantileTable shape xmin dx xs) := by
  unfold Strict1
  rw [List.pairwise_iff_getElem]
  intro i j hi hj hij
  obtain ⟨x, hx, e1⟩ := quantileTable_get' g i _ (List.getElem?_eq_getElem hi)
  obtain ⟨y, hy, e2⟩ := quantileTable_get' g j _ (List.getElem?_eq_getElem hj)
  rw [e1, e2]
  rw [quantileTable_length] at hj
  exact div_lt_div_of_pos_right
    (take_sum_lt _ g.wpos (i + 1) (j + 1) (by omega) (by rw [wt_length]; omega)) g.sum_pos

theorem quantileTable_incr (g : Good shape xmin dx xs) : Incr (quantileTable shape xmin dx xs) := by
  unfold Incr
  rw [List.pairwise_iff_getElem]
  intro i j hi hj hij
  refine ⟨(List.pairwise_iff_getElem.1 (quantileTable_strict g) i j hi hj hij).le, ?_⟩
  obtain ⟨x, hx, e1⟩ := quantileTable_get' g i _ (List.getElem?_eq_getElem hi)
  obtain ⟨y, hy, e2⟩ := quantileTable_get' g j _ (List.getElem?_eq_getElem hj)
  rw [e1, e2]
  obtain ⟨h1, rfl⟩ := List.getElem?_eq_some_iff.1 hx
  obtain ⟨h2, rfl⟩ := List.getElem?_eq_some_iff.1 hy
  exact (List.pairwise_iff_getElem.1 g.strict i j h1 h2 hij).le

end table

end Verif.LF
