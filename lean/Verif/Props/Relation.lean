import Verif.Lemmas.Relation
import Verif.Props.Schechter

/-!
# Properties of the tabulated relations of halos and galaxies
-/

set_option linter.unusedSectionVars false

namespace Verif.Rel

open Verif.AM Spec
open Verif.Sim (Err)
open Verif.Gal (Fn)

variable {K : Type} [Field K] [LinearOrder K] [IsStrictOrderedRing K]

/-! ## Single rows of the table -/

/-- Whatever the numbers of halos and galaxies are, the missing fractions are accepted by the matching. -/
theorem C94_accepted (l : Law K) (hl : Fair l) (s : Snap K) (he : 0 < s.edge) (u : Bool) (mm : K)
    (grid cat : List K) (hs : selected s u mm = .ok cat) : ∃ rs, row l s u mm grid = .ok rs := by
  unfold row
  rw [hs]
  rcases cat with _ | ⟨v, vs⟩
  · exact ⟨_, rfl⟩
  · have hT : 0 < l.total * s.edge ^ 3 := mul_pos hl.total (pow_pos he 3)
    obtain ⟨b1, b2, b3, b4⟩ := missing_bounds (v :: vs).length (by simp) _ hT
    obtain ⟨m, hm⟩ := C43_accepted (v :: vs) l.dist 0 ⊤
      (options (missing (v :: vs).length (l.total * s.edge ^ 3))) (by simp)
      ⟨b1, le_refl _, by simpa [options] using b2.le⟩ ⟨b3, le_refl _, by simpa [options] using b4.le⟩
      ⟨by simp [options], by simp [options], by simp [options], by simp [options]⟩
    simp only
    rw [hm]
    exact ⟨_, rfl⟩

theorem fraction_above (cat : List K) (low a : K) :
    AM.Spec.fraction cat low 0 a = low + (1 - above cat a) * (1 - low) := by
  unfold AM.Spec.fraction above
  ring

theorem above_heaviest (cat : List K) (h2 : 2 ≤ cat.length) (x : K) (h : ∀ a ∈ cat, a ≤ x) : above cat x = 0 := by
  have : cat.countP (fun a => decide (a ≤ x)) = cat.length := by
    rw [List.countP_eq_length]
    intro a ha
    simpa using h a ha
  have h1 : (1 : K) < (cat.length : K) := by exact_mod_cast h2
  have : ((cat.length : K) - 1) ≠ 0 := by linarith
  unfold above
  rw [‹cat.countP _ = _›, div_self this, sub_self]

section
variable (l : Law K) (hl : Fair l) (s : Snap K) (he : 0 < s.edge) (u : Bool) (mm : K)
  (grid cat : List K) (rs : List (Option K)) (hs : selected s u mm = .ok cat)
  (hr : row l s u mm grid = .ok rs) (j : ℕ) (x : K) (hj : grid[j]? = some x)
include hl he hs hr hj

/-- **As many galaxies as halos.** Between two halos `a` and `b` of the catalogue, the value in the table is the
one that as many galaxies exceed as there are halos above, if there are fewer halos above than galaxies. -/
theorem C94_abundance_partial (h2 : 2 ≤ cat.length) (a b : K) (ha : a ∈ cat) (hb : b ∈ cat) (hax : a ≤ x)
    (hxb : x ≤ b) (hlow : ∃ y ∈ cat, y < x) (hhigh : ∃ y ∈ cat, x < y)
    (hfew : (cat.length : K) * above cat a < l.total * s.edge ^ 3) :
    ∃ c v, 0 < c ∧ c < 1 ∧ l.dist.ppf c = some ((v : K) : WithTop K) ∧ rs[j]? = some (some v) ∧
      (cat.length : K) * above cat b ≤ brighter (l.total * s.edge ^ 3) c ∧
      brighter (l.total * s.edge ^ 3) c ≤ (cat.length : K) * above cat a := by
  have hn : 0 < cat.length := by omega
  have hn' : (0 : K) < (cat.length : K) := by exact_mod_cast hn
  have hT : 0 < l.total * s.edge ^ 3 := mul_pos hl.total (pow_pos he 3)
  obtain ⟨T, eT⟩ : ∃ T, T = l.total * s.edge ^ 3 := ⟨_, rfl⟩
  rw [← eT] at hT hfew
  obtain ⟨m, q, qs, top, H, e⟩ := row_entry l s u mm grid rs cat hs (by rintro rfl; simp at h2) hr j x hj
  rw [← eT] at H e ⊢
  obtain ⟨b1, b2, b3, b4⟩ := missing_bounds cat.length hn T hT
  obtain ⟨L, eL⟩ : ∃ L, L = missing cat.length T := ⟨_, rfl⟩
  rw [← eL] at H e b1 b2 b3 b4
  obtain ⟨C, eC⟩ : ∃ C, C = cdfCat (q, qs) x := ⟨_, rfl⟩
  rw [← eC] at e
  have hFa := cdfCat_at H a ha h2
  have hFb := cdfCat_at H b hb h2
  have ea : AM.Spec.fraction cat (options L).low1 (options L).high1 a = L.1 + (1 - above cat a) * (1 - L.1) :=
    fraction_above cat L.1 a
  have eb : AM.Spec.fraction cat (options L).low1 (options L).high1 b = L.1 + (1 - above cat b) * (1 - L.1) :=
    fraction_above cat L.1 b
  rw [ea] at hFa
  rw [eb] at hFb
  have hma := cdfCat_mono H a x hax
  have hmb := cdfCat_mono H x b hxb
  rw [hFa, ← eC] at hma
  rw [hFb, ← eC] at hmb
  obtain ⟨y0, hy0, hy0x⟩ := hlow
  obtain ⟨y1, hy1, hxy1⟩ := hhigh
  have hstrict := cdfCat_strict H (by simpa [options] using b2) x
    (lt_of_le_of_lt (H.first y0 hy0) hy0x) (lt_of_lt_of_le hxy1 (H.last y1 hy1))
  rw [← eC] at hstrict
  have hC1 : C < 1 := by have := hstrict.2; simpa [options] using this
  -- the fraction of galaxies
  have hw : 0 < 1 - L.2 := by linarith
  -- fractions as numbers
  have key : ∀ f, (C = L.1 + f * (1 - L.1)) → T * (1 - (C - L.2) / (1 - L.2)) = (cat.length : K) * (1 - f) := by
    intro f hf
    refine missing_number cat.length hn T hT f _ ?_
    rw [← eL, hf]
  obtain ⟨f, hf⟩ : ∃ f, C = L.1 + f * (1 - L.1) := by
    refine ⟨(C - L.1) / (1 - L.1), ?_⟩
    have : (1 - L.1) ≠ 0 := by linarith
    field_simp
    ring
  have hkey := key f hf
  have hfa : 1 - above cat a ≤ f := by
    rw [hf] at hma
    have h3 : 0 < 1 - L.1 := by linarith
    have : (1 - above cat a) * (1 - L.1) ≤ f * (1 - L.1) := by linarith
    exact le_of_mul_le_mul_right this h3
  have hfb : f ≤ 1 - above cat b := by
    rw [hf] at hmb
    have h3 : 0 < 1 - L.1 := by linarith
    have : f * (1 - L.1) ≤ (1 - above cat b) * (1 - L.1) := by linarith
    exact le_of_mul_le_mul_right this h3
  have hlt : T * (1 - (C - L.2) / (1 - L.2)) < T := by
    rw [hkey]
    refine lt_of_le_of_lt ?_ hfew
    exact mul_le_mul_of_nonneg_left (by linarith) hn'.le
  have hc0 : 0 < (C - L.2) / (1 - L.2) := by
    by_contra hneg
    have : T * 1 ≤ T * (1 - (C - L.2) / (1 - L.2)) := mul_le_mul_of_nonneg_left (by linarith) hT.le
    linarith
  have hc1 : (C - L.2) / (1 - L.2) < 1 := by rw [div_lt_one hw]; linarith
  have hCL : L.2 < C := by
    have := (div_pos_iff_of_pos_right hw).1 hc0
    linarith
  obtain ⟨v, hv0, hv⟩ := hl.positive _ hc0 hc1
  refine ⟨_, v, hc0, hc1, hv, ?_, ?_, ?_⟩
  · rw [e, ppfElem_eq _ _ _ _ (by linarith) _ hCL.ne' (by simpa using hC1.ne),
      ppfScalar_inside _ _ _ _ (by linarith) _ hCL.le (by simpa using hC1.le)]
    unfold AM.Spec.valueAt
    rw [hl.zero, hl.top]
    have e2 : (0 : K) + (C - L.2) / (1 - L.2 - 0) * (1 - 0) = (C - L.2) / (1 - L.2) := by
      rw [sub_zero, sub_zero, mul_one, zero_add]
    rw [e2, hv]
    rfl
  · unfold brighter
    rw [hkey]
    exact mul_le_mul_of_nonneg_left (by linarith) hn'.le
  · unfold brighter
    rw [hkey]
    exact mul_le_mul_of_nonneg_left (by linarith) hn'.le

/-- **The heaviest halos get nothing.** In the table, everything from the heaviest halo of a snapshot on
is zero. -/
theorem C94_heaviest_zero (h2 : 2 ≤ cat.length) (hx : ∀ a ∈ cat, a ≤ x) : rs[j]? = some (some 0) := by
  have hn : 0 < cat.length := by omega
  have hT : 0 < l.total * s.edge ^ 3 := mul_pos hl.total (pow_pos he 3)
  obtain ⟨m, q, qs, top, H, e⟩ := row_entry l s u mm grid rs cat hs (by rintro rfl; simp at h2) hr j x hj
  obtain ⟨b1, b2, b3, b4⟩ := missing_bounds cat.length hn _ hT
  have hone : cdfCat (q, qs) x = 1 := by
    by_cases hm : x ∈ cat
    · rw [cdfCat_at H x hm h2]
      have := fraction_above cat (missing cat.length (l.total * s.edge ^ 3)).1 x
      rw [above_heaviest cat h2 x hx] at this
      refine this.trans ?_
      ring
    · refine cdfCat_above H x (fun a ha => lt_of_le_of_ne (hx a ha) ?_)
      rintro rfl
      exact hm ha
  rw [e, hone, ppfElem_edge _ _ _ _ (by linarith) _ (Or.inr (by ring))]
  rfl

/-- Halos above which there are more halos than galaxies get NaN. -/
theorem C94_unmatched_nan (h2 : 2 ≤ cat.length) (b : K) (hb : b ∈ cat) (hxb : x ≤ b)
    (hmany : l.total * s.edge ^ 3 < (cat.length : K) * above cat b) (hle : above cat b ≤ 1) :
    rs[j]? = some none := by
  have hn : 0 < cat.length := by omega
  have hn' : (0 : K) < (cat.length : K) := by exact_mod_cast hn
  have hT : 0 < l.total * s.edge ^ 3 := mul_pos hl.total (pow_pos he 3)
  obtain ⟨T, eT⟩ : ∃ T, T = l.total * s.edge ^ 3 := ⟨_, rfl⟩
  rw [← eT] at hT hmany
  obtain ⟨m, q, qs, top, H, e⟩ := row_entry l s u mm grid rs cat hs (by rintro rfl; simp at h2) hr j x hj
  rw [← eT] at H e
  have hnT : (cat.length : K) > T := by
    have : (cat.length : K) * above cat b ≤ (cat.length : K) * 1 := mul_le_mul_of_nonneg_left hle hn'.le
    linarith
  have hL : missing cat.length T = (0, 1 - T / (cat.length : K)) := by
    unfold missing; rw [if_pos hnT]
  rw [hL] at H e
  have hFb := cdfCat_at H b hb h2
  have eb := fraction_above cat (0 : K) b
  have hmb := cdfCat_mono H x b hxb
  rw [hFb] at hmb
  have hmb' : cdfCat (q, qs) x ≤ 0 + (1 - above cat b) * (1 - 0) := by
    rw [← eb]; exact hmb
  have hdiv : T / (cat.length : K) < above cat b := by
    rw [div_lt_iff₀ hn']
    linarith [mul_comm (cat.length : K) (above cat b)]
  have hlt : cdfCat (q, qs) x < 1 - T / (cat.length : K) := by linarith
  have hpos : 0 < T / (cat.length : K) := div_pos hT hn'
  rw [e]
  unfold ppfElem
  simp only
  rw [if_neg (not_lt.2 (by linarith)), if_pos hlt]
  rfl

/-- If there are at least as many galaxies as halos, every value of the table is a number. -/
theorem C94_numbers (hc : cat ≠ []) (hmany : (cat.length : K) ≤ l.total * s.edge ^ 3) :
    ∃ v, rs[j]? = some (some v) := by
  have hn : 0 < cat.length := List.length_pos_iff.2 hc
  have hT : 0 < l.total * s.edge ^ 3 := mul_pos hl.total (pow_pos he 3)
  obtain ⟨m, q, qs, top, H, e⟩ := row_entry l s u mm grid rs cat hs hc hr j x hj
  have hL : (missing cat.length (l.total * s.edge ^ 3)).2 = 0 := by
    unfold missing; rw [if_neg (not_lt.2 hmany)]
  rw [hL] at e
  obtain ⟨u1, u2⟩ := cdfCat_unit H x
  rw [e]
  by_cases hedge : cdfCat (q, qs) x = 0 ∨ cdfCat (q, qs) x = 1 - 0
  · rw [ppfElem_edge _ _ _ _ (by linarith [zero_le_one (α := K)]) _ hedge]
    exact ⟨0, rfl⟩
  · push Not at hedge
    rw [ppfElem_eq _ _ _ _ (by linarith [zero_le_one (α := K)]) _ hedge.1 hedge.2,
      ppfScalar_inside _ _ _ _ (by linarith [zero_lt_one (α := K)]) _ u1 (by linarith)]
    unfold AM.Spec.valueAt
    rw [hl.zero, hl.top]
    have e2 : (0 : K) + (cdfCat (q, qs) x - 0) / (1 - 0 - 0) * (1 - 0) = cdfCat (q, qs) x := by
      rw [sub_zero, sub_zero, sub_zero, div_one, mul_one, zero_add]
    rw [e2]
    obtain ⟨v, hv0, hv⟩ := hl.positive _ (lt_of_le_of_ne u1 (Ne.symm hedge.1))
      (lt_of_le_of_ne u2 (by simpa using hedge.2))
    rw [hv]
    exact ⟨v, rfl⟩

end

end Verif.Rel
