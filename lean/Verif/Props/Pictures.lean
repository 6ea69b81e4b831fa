import Verif.Lemmas.Pictures
import Verif.Props.GridConv
import Mathlib.Algebra.Order.Field.Rat
import Mathlib.Tactic.IntervalCases

/-!
# C113: pictures of grids
-/

set_option linter.unusedSectionVars false

namespace Verif.Pic

open Verif.Map (Grid Arr axisEdges)
open Verif.Map.Spec (Regular AxisIs edges middles freqs)
open Verif.Pic.Spec

variable {K V W : Type} [Field K] [LinearOrder K] [IsStrictOrderedRing K] [FloorRing K]
variable [AddCommMonoid V] [AddCommMonoid W]

theorem pyIndex_iff (n : ℕ) (k : ℤ) (j : ℕ) : pyIndex n k = .ok j ↔ Means n k j := by
  unfold pyIndex Means
  by_cases h1 : 0 ≤ k ∧ k < n
  · rw [if_pos h1]
    simp only [Except.ok.injEq]
    omega
  · rw [if_neg h1]
    by_cases h2 : k < 0 ∧ 0 ≤ k + n
    · rw [if_pos h2]
      simp only [Except.ok.injEq]
      omega
    · rw [if_neg h2]
      simp only [reduceCtorEq, false_iff]
      omega

theorem pcolor_ok {xs ys : List K} {img : Arr W} {nx ny : ℕ} (hs : img.shape = [ny, nx]) (hx : xs.length = nx + 1)
    (hy : ys.length = ny + 1) : pcolor xs ys img = .ok ⟨xs, ys, false, fun i j => img.get [j, i]⟩ := by
  unfold pcolor
  rw [hs]
  simp only [hx, hy, and_self, if_true]

theorem two_axes {dim a0 a1 : ℕ} (h : a0 < a1) (h1 : a1 < dim) : shownAxes dim [a0, a1] = [a0, a1] := by
  apply shownAxes_eq
  · simp [h]
  · intro d
    simp only [List.mem_cons, List.not_mem_nil, or_false]
    omega

theorem two_axes' {dim a0 a1 : ℕ} (h : a1 < a0) (h1 : a0 < dim) : shownAxes dim [a0, a1] = [a1, a0] := by
  apply shownAxes_eq
  · simp [h]
  · intro d
    simp only [List.mem_cons, List.not_mem_nil, or_false]
    omega

theorem axis_lengths {g : Grid K V} (hg : Regular g) {d : ℕ} (hd : d < g.dim) :
    ∃ n w c, 2 ≤ n ∧ 0 < w ∧ g.nPix[d]? = some n ∧ g.nPix.getD d 0 = n ∧ g.axes[d]? = some (edges n w c) ∧
      (edges n w c).length = n + 1 ∧ AxisIs g d n w c := by
  obtain ⟨n, w, c, hn, hw, h⟩ := hg.axis d hd
  refine ⟨n, w, c, hn, hw, h.nPix, ?_, h.axes, by simp [edges], h⟩
  rw [List.getD_eq_getElem?_getD, h.nPix]
  rfl

/-- The indices along the axes that are not shown. -/
theorem sliceIndices_ok {ns rem : List ℕ} {slices : List ℤ} {ks : List ℕ} (h : sliceIndices ns rem slices = .ok ks) :
    slices.length = rem.length ∧ ks.length = rem.length ∧ ∀ (m d j : ℕ) (k : ℤ), rem[m]? = some d → slices[m]? = some k →
      ks[m]? = some j → Means (ns.getD d 0) k j := by
  unfold sliceIndices at h
  by_cases hl : slices.length ≠ rem.length
  · rw [if_pos hl] at h; cases h
  · rw [if_neg hl] at h
    rw [not_not] at hl
    obtain ⟨h1, h2⟩ := (mapE_ok_iff _ _ _).1 h
    refine ⟨hl, by rw [h1]; simp [hl], ?_⟩
    intro m d j k hd hk hj
    obtain ⟨j', hj', hp⟩ := h2 m (d, k) (by rw [List.getElem?_zip_eq_some]; exact ⟨hd, hk⟩)
    rw [hj] at hj'
    cases hj'
    exact (pyIndex_iff _ _ _).1 hp

theorem remaining_nodup (dim : ℕ) (ax : List ℕ) : (remaining dim ax).Nodup := List.nodup_range.filter _

theorem mem_remaining (dim : ℕ) (ax : List ℕ) (d : ℕ) : d ∈ remaining dim ax ↔ d < dim ∧ d ∉ ax := by
  simp [remaining]

/-- What is taken along the axes that are not shown, and the indices that this fixes. -/
theorem others_spec {g : Grid K V} (hg : Regular g) (ax : List ℕ) (slices : Option (List ℤ)) (ks : List ℕ)
    (hk : ∀ l, slices = some l → sliceIndices g.nPix (remaining g.dim ax) l = .ok ks) (hn : slices = none → ks = []) :
    ∃ other, others g (remaining g.dim ax) slices = .ok other ∧
      (∀ (d n : ℕ), g.nPix[d]? = some n → d ∉ ax → other d n = .all n ∨ ∃ k < n, other d n = .one k) ∧
      ∀ (d k : ℕ), (d, k) ∈ (remaining g.dim ax).zip ks ↔ d ∉ ax ∧ ∃ n, g.nPix[d]? = some n ∧ other d n = .one k := by
  rcases slices with _ | l
  · refine ⟨fun _ n => .all n, rfl, fun d n _ _ => .inl rfl, ?_⟩
    intro d k
    rw [hn rfl]
    simp
  · have hs := hk l rfl
    obtain ⟨h1, h2, h3⟩ := sliceIndices_ok hs
    refine ⟨fun d _ => .one (ks.getD ((remaining g.dim ax).idxOf d) 0), by simp only [others, hs], ?_, ?_⟩
    · intro d n hd hax
      refine .inr ⟨_, ?_, rfl⟩
      have hd' : d < g.dim := by
        have := (List.getElem?_eq_some_iff.1 hd).1
        rwa [hg.nPix] at this
      have hm : d ∈ remaining g.dim ax := (mem_remaining _ _ _).2 ⟨hd', hax⟩
      have hi := List.idxOf_lt_length_iff.2 hm
      have hr : (remaining g.dim ax)[(remaining g.dim ax).idxOf d]? = some d := by
        rw [List.getElem?_eq_getElem hi, List.getElem_idxOf]
      have hkk : ks[(remaining g.dim ax).idxOf d]? = some (ks.getD ((remaining g.dim ax).idxOf d) 0) := by
        rw [List.getD_eq_getElem?_getD, List.getElem?_eq_getElem (by omega)]; rfl
      have hll : l[(remaining g.dim ax).idxOf d]? = some (l[(remaining g.dim ax).idxOf d]'(by omega)) :=
        List.getElem?_eq_getElem _
      have := (h3 _ d _ _ hr hll hkk).1
      rw [List.getD_eq_getElem?_getD (l := g.nPix), hd] at this
      exact this
    · intro d k
      constructor
      · intro h
        obtain ⟨m, hm⟩ := List.getElem?_of_mem h
        rw [List.getElem?_zip_eq_some] at hm
        have hmem := List.mem_of_getElem? hm.1
        have hd := (mem_remaining _ _ _).1 hmem
        have hlt : m < (remaining g.dim ax).length := (List.getElem?_eq_some_iff.1 hm.1).1
        have hidx : (remaining g.dim ax).idxOf d = m := by
          have e : (remaining g.dim ax)[m] = d := (List.getElem?_eq_some_iff.1 hm.1).2
          rw [← e]
          exact (remaining_nodup _ _).idxOf_getElem m hlt
        obtain ⟨n, w, c, -, -, hnp, -⟩ := axis_lengths hg hd.1
        refine ⟨hd.2, n, hnp, ?_⟩
        show Sel.one (ks.getD ((remaining g.dim ax).idxOf d) 0) = Sel.one k
        rw [hidx, List.getD_eq_getElem?_getD, hm.2]
        rfl
      · rintro ⟨hax, n, hnp, h⟩
        have hd' : d < g.dim := by
          have := (List.getElem?_eq_some_iff.1 hnp).1
          rwa [hg.nPix] at this
        have hm : d ∈ remaining g.dim ax := (mem_remaining _ _ _).2 ⟨hd', hax⟩
        have hi := List.idxOf_lt_length_iff.2 hm
        have hr : (remaining g.dim ax)[(remaining g.dim ax).idxOf d]? = some d := by
          rw [List.getElem?_eq_getElem hi, List.getElem_idxOf]
        simp only [Sel.one.injEq] at h
        have hkk : ks[(remaining g.dim ax).idxOf d]? = some k := by
          rw [← h, List.getD_eq_getElem?_getD, List.getElem?_eq_getElem (by omega)]; rfl
        apply List.mem_of_getElem? (i := (remaining g.dim ax).idxOf d)
        rw [List.getElem?_zip_eq_some]
        exact ⟨hr, hkk⟩

/-- Two axes, in the order in which the grid has them, are shown at their positions, and in each place the sum of the
cells that are there, or the slice that was asked for. -/
theorem C113_view_partial {g : Grid K V} (hg : Regular g) (re : V →+ W) (a : Arr V) (ha : g.grid = some a)
    (hu : g.axunits.length = g.dim) (a0 a1 : ℕ) (h01 : a0 < a1) (h1 : a1 < g.dim) (slices : Option (List ℤ))
    (prop : ℤ) (p : ℕ) (hp : Means g.nProps prop p) (ks : List ℕ) (hn : slices = none → ks = [])
    (hk : ∀ l, slices = some l → l.length = (hidden g.dim [a0, a1]).length ∧ ks.length = l.length ∧
      ∀ (m d j : ℕ) (k : ℤ), (hidden g.dim [a0, a1])[m]? = some d → l[m]? = some k → ks[m]? = some j →
        Means (g.nPix.getD d 0) k j) :
    ∃ pic n0 w0 c0 n1 w1 c1, visualize g re [a0, a1] slices prop = .ok pic ∧ AxisIs g a0 n0 w0 c0 ∧
      AxisIs g a1 n1 w1 c1 ∧ pic.mesh.xs = edges n0 w0 c0 ∧ pic.mesh.ys = edges n1 w1 c1 ∧
      pic.xlabel = (a0, g.axunits.getD a0 none) ∧ pic.ylabel = (a1, g.axunits.getD a1 none) ∧
      Shows g re a p a0 a1 ((hidden g.dim [a0, a1]).zip ks) pic.mesh := by
  have hhid : hidden g.dim [a0, a1] = remaining g.dim [a0, a1] := rfl
  rw [hhid] at hk ⊢
  obtain ⟨n0, w0, c0, hn0, -, e0, d0, x0, l0, A0⟩ := axis_lengths hg (h01.trans h1)
  obtain ⟨n1, w1, c1, hn1, -, e1, d1, x1, l1, A1⟩ := axis_lengths hg h1
  have hks : ∀ l, slices = some l → sliceIndices g.nPix (remaining g.dim [a0, a1]) l = .ok ks := by
    intro l hl
    obtain ⟨q1, q2, q3⟩ := hk l hl
    unfold sliceIndices
    rw [if_neg (by rw [not_not]; exact q1)]
    rw [mapE_ok_iff]
    refine ⟨by simp [q1, q2], ?_⟩
    intro m q hq
    rw [show q = (q.1, q.2) from rfl, List.getElem?_zip_eq_some] at hq
    have hm : m < ks.length := by
      have := (List.getElem?_eq_some_iff.1 hq.2).1
      omega
    exact ⟨ks[m], List.getElem?_eq_getElem hm,
      (pyIndex_iff _ _ _).2 (q3 m q.1 _ q.2 hq.1 hq.2 (List.getElem?_eq_getElem hm))⟩
  obtain ⟨other, ho, ho1, ho2⟩ := others_spec hg [a0, a1] slices ks hks hn
  have hsh := two_axes h01 h1
  have himg : viewImage g re a [a0, a1] slices prop = .ok (image re a g.nPix [a0, a1] other p) := by
    unfold viewImage
    rw [ho]
    simp only [hsh, List.length_cons, List.length_nil, ne_eq, not_true_eq_false, if_false]
    rw [(pyIndex_iff _ _ _).2 hp]
  have u0 : g.axunits[a0]? = some (g.axunits.getD a0 none) := by
    rw [List.getD_eq_getElem?_getD, List.getElem?_eq_getElem (by omega)]; rfl
  have u1 : g.axunits[a1]? = some (g.axunits.getD a1 none) := by
    rw [List.getD_eq_getElem?_getD, List.getElem?_eq_getElem (by omega)]; rfl
  have hshape : (transpose (image re a g.nPix [a0, a1] other p)).shape = [n1, n0] := by
    simp [transpose, image, lengths, e0, e1]
  have hpc := pcolor_ok hshape l0 l1
  refine ⟨⟨(a0, g.axunits.getD a0 none), (a1, g.axunits.getD a1 none), ⟨edges n0 w0 c0, edges n1 w1 c1, false,
    fun i j => (transpose (image re a g.nPix [a0, a1] other p)).get [j, i]⟩⟩, n0, w0, c0, n1, w1, c1, ?_, A0, A1, ?_, ?_,
    ?_, ?_, ?_⟩
  · unfold visualize
    rw [ha]
    simp only
    rw [if_neg (by omega)]
    simp only [u0, u1, ne_eq, not_true_eq_false, if_false]
    rw [himg]
    simp only [x0, x1, hpc]
  · rfl
  · rfl
  · rfl
  · rfl
  · refine ⟨?_, rfl, ?_⟩
    · intro m0 m1 hm0 hm1
      rw [e0] at hm0
      rw [e1] at hm1
      cases hm0
      cases hm1
      exact ⟨l0, l1⟩
    · intro m0 m1 i j hm0 hm1 hi hj
      rw [e0] at hm0
      rw [e1] at hm1
      cases hm0
      cases hm1
      show (image re a g.nPix [a0, a1] other p).get [i, j] = _
      have hne : a1 ≠ a0 := by omega
      apply image_eq
      · simp [h01]
      · intro d hd
        rw [hg.nPix]
        simp only [List.mem_cons, List.not_mem_nil, or_false] at hd
        omega
      · rfl
      · intro m d i' n' hd hi' hn'
        match m with
        | 0 =>
          simp only [List.getElem?_cons_zero, Option.some.injEq] at hd hi'
          subst hd; subst hi'
          rw [e0] at hn'; cases hn'
          exact hi
        | 1 =>
          simp only [List.getElem?_cons_succ, List.getElem?_cons_zero, Option.some.injEq] at hd hi'
          subst hd; subst hi'
          rw [e1] at hn'; cases hn'
          exact hj
        | m + 2 => simp at hd
      · exact ho1
      · intro d k
        rw [← ho2 d k]
        simp only [List.mem_cons, List.zip_cons_cons, List.zip_nil_left, List.not_mem_nil, or_false]
        exact (or_assoc).symm

/-- With the axes in the opposite order the picture is refused, or, if both have the same number of cells, shown with
the two axes exchanged. -/
theorem C113_swapped {g : Grid K V} (hg : Regular g) (re : V →+ W) (a : Arr V) (ha : g.grid = some a)
    (hu : g.axunits.length = g.dim) (a0 a1 : ℕ) (h01 : a1 < a0) (h1 : a0 < g.dim) (prop : ℤ) (p : ℕ)
    (hp : Means g.nProps prop p) (n0 n1 : ℕ) (hn0 : g.nPix[a0]? = some n0) (hn1 : g.nPix[a1]? = some n1) :
    (n0 ≠ n1 → visualize g re [a0, a1] none prop = .error .type) ∧
    (n0 = n1 → ∃ pic, visualize g re [a0, a1] none prop = .ok pic ∧ g.axes[a0]? = some pic.mesh.xs ∧
      g.axes[a1]? = some pic.mesh.ys ∧ ∀ i < n0, ∀ j < n0,
        pic.mesh.val i j = sumAt re a g.nPix [(a0, j), (a1, i)] p) := by
  obtain ⟨m0, w0, c0, -, -, e0, d0, x0, l0, -⟩ := axis_lengths hg h1
  obtain ⟨m1, w1, c1, -, -, e1, d1, x1, l1, -⟩ := axis_lengths hg (h01.trans h1)
  rw [hn0] at e0
  rw [hn1] at e1
  cases e0
  cases e1
  have hsh := two_axes' h01 h1
  have himg : viewImage g re a [a0, a1] none prop = .ok (image re a g.nPix [a1, a0] (fun _ n => .all n) p) := by
    unfold viewImage
    simp only [others, hsh, List.length_cons, List.length_nil, ne_eq, not_true_eq_false, if_false]
    rw [(pyIndex_iff _ _ _).2 hp]
  have u0 : g.axunits[a0]? = some (g.axunits.getD a0 none) := by
    rw [List.getD_eq_getElem?_getD, List.getElem?_eq_getElem (by omega)]; rfl
  have u1 : g.axunits[a1]? = some (g.axunits.getD a1 none) := by
    rw [List.getD_eq_getElem?_getD, List.getElem?_eq_getElem (by omega)]; rfl
  have hshape : (transpose (image re a g.nPix [a1, a0] (fun _ n => .all n) p)).shape = [n0, n1] := by
    simp [transpose, image, lengths, hn0, hn1]
  have hvis : visualize g re [a0, a1] none prop =
      match pcolor (edges n0 w0 c0) (edges n1 w1 c1)
        (transpose (image re a g.nPix [a1, a0] (fun _ n => .all n) p)) with
      | .error e => .error e
      | .ok m => .ok ⟨(a0, g.axunits.getD a0 none), (a1, g.axunits.getD a1 none), m⟩ := by
    unfold visualize
    rw [ha]
    simp only
    rw [if_neg (by omega)]
    simp only [u0, u1, ne_eq, not_true_eq_false, if_false]
    rw [himg]
    simp only [x0, x1]
    rfl
  constructor
  · intro hne
    rw [hvis]
    have : pcolor (edges n0 w0 c0) (edges n1 w1 c1) (transpose (image re a g.nPix [a1, a0] (fun _ n => .all n) p)) =
        .error .type := by
      unfold pcolor
      rw [hshape]
      simp only [l0, l1]
      rw [if_neg (by omega), if_neg (by omega)]
    rw [this]
  · rintro rfl
    have hpc := pcolor_ok hshape l0 l1
    refine ⟨⟨(a0, g.axunits.getD a0 none), (a1, g.axunits.getD a1 none), _⟩, by rw [hvis, hpc], x0, x1, ?_⟩
    intro i hi j hj
    show (image re a g.nPix [a1, a0] (fun _ n => .all n) p).get [i, j] = _
    apply image_eq
    · simp [h01]
    · intro d hd
      rw [hg.nPix]
      simp only [List.mem_cons, List.not_mem_nil, or_false] at hd
      omega
    · rfl
    · intro m d i' n' hd hi' hn'
      match m with
      | 0 =>
        simp only [List.getElem?_cons_zero, Option.some.injEq] at hd hi'
        subst hd; subst hi'
        rw [hn1] at hn'; cases hn'
        exact hi
      | 1 =>
        simp only [List.getElem?_cons_succ, List.getElem?_cons_zero, Option.some.injEq] at hd hi'
        subst hd; subst hi'
        rw [hn0] at hn'; cases hn'
        exact hj
      | m + 2 => simp at hd
    · exact fun _ _ _ _ => .inl rfl
    · intro d k
      simp only [List.mem_cons, List.zip_cons_cons, List.zip_nil_left, List.not_mem_nil, or_false, reduceCtorEq,
        and_false, exists_false]
      tauto

/-- Requests that cannot be fulfilled raise: no data, fewer than two axes, an axis named twice, more or fewer than two
axes, an axis or a property that the grid does not have, not one index for each of the other axes. -/
theorem C113_refused (g : Grid K V) (re : V →+ W) (ax : List ℕ) (slices : Option (List ℤ)) (prop : ℤ)
    (hu : g.axunits.length = g.dim)
    (h : g.grid = none ∨ g.dim < 2 ∨ ax.length ≠ 2 ∨ ¬ ax.Nodup ∨ (∃ d ∈ ax, g.dim ≤ d) ∨
      (∀ p, ¬ Means g.nProps prop p) ∨ (∃ l, slices = some l ∧ l.length ≠ (hidden g.dim ax).length)) :
    ∃ e, visualize g re ax slices prop = .error e := by
  rcases hv : visualize g re ax slices prop with e | pic
  · exact ⟨e, rfl⟩
  · exfalso
    unfold visualize at hv
    rcases hgr : g.grid with _ | a
    · rw [hgr] at hv; cases hv
    · rw [hgr] at hv
      simp only at hv
      by_cases hd : g.dim < 2
      · rw [if_pos hd] at hv; cases hv
      · rw [if_neg hd] at hv
        match ax, hv, h with
        | [], hv, _ => cases hv
        | [_], hv, _ => cases hv
        | a0 :: a1 :: rest, hv, h =>
          simp only at hv
          rcases u0 : g.axunits[a0]? with _ | v0
          · rw [u0] at hv; cases hv
          · rcases u1 : g.axunits[a1]? with _ | v1
            · rw [u0, u1] at hv; cases hv
            · rw [u0, u1] at hv
              simp only at hv
              have b0 : a0 < g.dim := by rw [← hu]; exact (List.getElem?_eq_some_iff.1 u0).1
              have b1 : a1 < g.dim := by rw [← hu]; exact (List.getElem?_eq_some_iff.1 u1).1
              by_cases hr : rest ≠ []
              · rw [if_pos hr] at hv; cases hv
              · rw [if_neg hr] at hv
                rw [not_not] at hr
                subst hr
                rcases hi : viewImage g re a [a0, a1] slices prop with e | img
                · rw [hi] at hv; cases hv
                · unfold viewImage at hi
                  rcases ho : others g (remaining g.dim [a0, a1]) slices with e | other
                  · rw [ho] at hi; cases hi
                  · rw [ho] at hi
                    simp only at hi
                    by_cases hl : (shownAxes g.dim [a0, a1]).length ≠ 2
                    · rw [if_pos hl] at hi; cases hi
                    · rw [if_neg hl] at hi
                      rcases hp : pyIndex g.nProps prop with e | p
                      · rw [hp] at hi; cases hi
                      · rcases h with h | h | h | h | h | h | h
                        · rw [hgr] at h; cases h
                        · exact hd h
                        · simp at h
                        · have e : a0 = a1 := by
                            by_contra hne
                            exact h (by simp [hne])
                          subst e
                          apply hl
                          rw [shownAxes_eq g.dim [a0, a0] [a0] (by simp) (by
                            intro d
                            simp only [List.mem_cons, List.not_mem_nil, or_false]
                            constructor
                            · rintro rfl; exact ⟨b0, .inl rfl⟩
                            · rintro ⟨-, h | h⟩ <;> exact h)]
                          simp
                        · obtain ⟨d, hm, hge⟩ := h
                          simp only [List.mem_cons, List.not_mem_nil, or_false] at hm
                          omega
                        · exact h p ((pyIndex_iff _ _ _).1 hp)
                        · obtain ⟨l, rfl, hne⟩ := h
                          have hne' : l.length ≠ (remaining g.dim [a0, a1]).length := hne
                          simp only [others, sliceIndices, if_pos hne'] at ho
                          cases ho

/-- In Fourier space the axes of the picture are the positions of the cells before the transformation, with their
units, not the frequencies. -/
theorem C113_fourier_labels {g : Grid K V} (hg : Regular g) (re : V →+ W) (ax : List ℕ) (slices : Option (List ℤ))
    (prop : ℤ) (pic : Picture K W) (h : visualize g re ax slices prop = .ok pic) :
    ∃ d n w c, d < g.dim ∧ AxisIs g d n w c ∧ 2 ≤ n ∧ pic.mesh.xs = edges n w c ∧ pic.xlabel = (d, g.axunits.getD d none) := by
  unfold visualize at h
  rcases hgr : g.grid with _ | a
  · rw [hgr] at h; cases h
  · rw [hgr] at h
    simp only at h
    by_cases hd : g.dim < 2
    · rw [if_pos hd] at h; cases h
    · rw [if_neg hd] at h
      match ax, h with
      | [], hv => cases hv
      | [_], hv => cases hv
      | a0 :: a1 :: rest, hv =>
        simp only at hv
        rcases u0 : g.axunits[a0]? with _ | v0
        · rw [u0] at hv; cases hv
        · rcases u1 : g.axunits[a1]? with _ | v1
          · rw [u0, u1] at hv; cases hv
          · rw [u0, u1] at hv
            simp only at hv
            by_cases hr : rest ≠ []
            · rw [if_pos hr] at hv; cases hv
            · rw [if_neg hr] at hv
              rcases hi : viewImage g re a [a0, a1] slices prop with e | img
              · rw [hi] at hv; cases hv
              · rw [hi] at hv
                simp only at hv
                rcases x0 : g.axes[a0]? with _ | xs
                · rw [x0] at hv; cases hv
                · rcases x1 : g.axes[a1]? with _ | ys
                  · rw [x0, x1] at hv; cases hv
                  · rw [x0, x1] at hv
                    simp only at hv
                    rcases hpc : pcolor xs ys (transpose img) with e | m
                    · rw [hpc] at hv; cases hv
                    · rw [hpc] at hv
                      simp only [Except.ok.injEq] at hv
                      have hb : a0 < g.dim := by rw [← hg.axes]; exact (List.getElem?_eq_some_iff.1 x0).1
                      obtain ⟨n, w, c, hn, -, -, -, hx, -, A⟩ := axis_lengths hg hb
                      have hxs : m.xs = xs := by
                        unfold pcolor at hpc
                        split at hpc
                        · split at hpc
                          · simp only [Except.ok.injEq] at hpc; rw [← hpc]
                          · split at hpc
                            · simp only [Except.ok.injEq] at hpc; rw [← hpc]
                            · cases hpc
                        · cases hpc
                      refine ⟨a0, n, w, c, hb, A, hn, ?_, ?_⟩
                      · rw [← hv]
                        show m.xs = _
                        rw [hxs]
                        rw [x0] at hx
                        exact Option.some.inj hx
                      · rw [← hv, List.getD_eq_getElem?_getD, u0]
                        rfl

/-! ## Animations -/

theorem axisOf_eq {g : Grid K V} (hg : Regular g) {d : ℕ} (hd : d < g.dim) :
    ∃ n x0 s, CentresOf g d n x0 s ∧ axisOf g d = (List.range n).map (fun k : ℕ => x0 + (k : K) * s) ∧
      slideAxis g d = (List.range n).map (fun k : ℕ => titleOf (g.fourier.getD d false) x0 s + (k : K) * s) := by
  obtain ⟨n, w, c, hn, hw, A⟩ := hg.axis d hd
  have hc : g.centers.getD d [] = middles n w c := by rw [List.getD_eq_getElem?_getD, A.centers]; rfl
  have hf : g.fcenters.getD d [] = freqs n w := by rw [List.getD_eq_getElem?_getD, A.fcenters]; rfl
  have hp : g.pix.vals.getD d 0 = w := by rw [List.getD_eq_getElem?_getD, A.pix]; rfl
  rcases hfo : g.fourier.getD d false with _ | _
  · refine ⟨n, c - n * w / 2 + w / 2, w, ⟨w, c, A, hn, fun _ => ⟨rfl, rfl⟩, fun h => ?_⟩, ?_, ?_⟩
    · rw [hfo] at h; cases h
    · unfold axisOf
      rw [hfo, hc]
      simp only [Bool.false_eq_true, if_false, middles]
      apply List.map_congr_left
      intro k _
      ring
    · unfold slideAxis
      rw [hfo, hc, hp]
      simp only [Bool.false_eq_true, if_false, middles, titleOf, List.map_map]
      apply List.map_congr_left
      intro k _
      simp only [Function.comp]
      ring
  · refine ⟨n, -((n / 2 : ℕ) : K) / (n * w), 1 / (n * w), ⟨w, c, A, hn, fun h => ?_, fun _ => ⟨rfl, rfl⟩⟩, ?_, ?_⟩
    · rw [hfo] at h; cases h
    · unfold axisOf
      rw [hfo, hf]
      simp only [if_true, freqs]
      apply List.map_congr_left
      intro k _
      rw [sub_div]
      ring
    · unfold slideAxis
      rw [hfo, hf]
      simp only [if_true, freqs, titleOf]
      apply List.map_congr_left
      intro k _
      rw [sub_div]
      ring

/-- An image of two axes, turned so that it has one row for each cell along the second one. -/
theorem pair_image {g : Grid K V} (hg : Regular g) (re : V →+ W) (a : Arr V) (p d0 d1 n0 n1 : ℕ) (hne : d0 ≠ d1)
    (h0 : d0 < g.dim) (h1 : d1 < g.dim) (hn0 : g.nPix[d0]? = some n0) (hn1 : g.nPix[d1]? = some n1)
    (other : ℕ → ℕ → Sel) (fixed : List (ℕ × ℕ))
    (ho : ∀ (d n : ℕ), g.nPix[d]? = some n → d ∉ [d0, d1] → other d n = .all n ∨ ∃ k < n, other d n = .one k)
    (hfix : ∀ (d k : ℕ), (d, k) ∈ fixed ↔ d ∉ [d0, d1] ∧ ∃ n, g.nPix[d]? = some n ∧ other d n = .one k) (img : Arr W)
    (himg : img = if d0 < d1 then transpose (image re a g.nPix (shownAxes g.dim [d0, d1]) other p)
      else image re a g.nPix (shownAxes g.dim [d0, d1]) other p) :
    img.shape = [n1, n0] ∧ ∀ i < n0, ∀ j < n1, img.get [j, i] = sumAt re a g.nPix ((d0, i) :: (d1, j) :: fixed) p := by
  have e0 : g.nPix.getD d0 0 = n0 := by rw [List.getD_eq_getElem?_getD, hn0]; rfl
  have e1 : g.nPix.getD d1 0 = n1 := by rw [List.getD_eq_getElem?_getD, hn1]; rfl
  by_cases hlt : d0 < d1
  · rw [if_pos hlt, two_axes hlt h1] at himg
    subst himg
    refine ⟨by simp [transpose, image, lengths, hn0, hn1], ?_⟩
    intro i hi j hj
    show (image re a g.nPix [d0, d1] other p).get [i, j] = _
    apply image_eq
    · simp [hlt]
    · intro d hd
      rw [hg.nPix]
      simp only [List.mem_cons, List.not_mem_nil, or_false] at hd
      omega
    · rfl
    · intro m d i' n' hd hi' hn'
      match m with
      | 0 =>
        simp only [List.getElem?_cons_zero, Option.some.injEq] at hd hi'
        subst hd; subst hi'
        rw [hn0] at hn'; cases hn'
        exact hi
      | 1 =>
        simp only [List.getElem?_cons_succ, List.getElem?_cons_zero, Option.some.injEq] at hd hi'
        subst hd; subst hi'
        rw [hn1] at hn'; cases hn'
        exact hj
      | m + 2 => simp at hd
    · exact ho
    · intro d k
      rw [← hfix d k]
      simp only [List.mem_cons, List.zip_cons_cons, List.zip_nil_left, List.not_mem_nil, or_false]
      exact (or_assoc).symm
  · have hlt' : d1 < d0 := by omega
    rw [if_neg hlt, two_axes' hlt' h0] at himg
    subst himg
    refine ⟨by simp [image, lengths, hn0, hn1], ?_⟩
    intro i hi j hj
    apply image_eq
    · simp [hlt']
    · intro d hd
      rw [hg.nPix]
      simp only [List.mem_cons, List.not_mem_nil, or_false] at hd
      omega
    · rfl
    · intro m d i' n' hd hi' hn'
      match m with
      | 0 =>
        simp only [List.getElem?_cons_zero, Option.some.injEq] at hd hi'
        subst hd; subst hi'
        rw [hn1] at hn'; cases hn'
        exact hj
      | 1 =>
        simp only [List.getElem?_cons_succ, List.getElem?_cons_zero, Option.some.injEq] at hd hi'
        subst hd; subst hi'
        rw [hn0] at hn'; cases hn'
        exact hi
      | m + 2 => simp at hd
    · intro d n hd hk
      exact ho d n hd (by
        simp only [List.mem_cons, List.not_mem_nil, or_false] at hk ⊢
        tauto)
    · intro d k
      have := hfix d k
      simp only [List.mem_cons, List.zip_cons_cons, List.zip_nil_left, List.not_mem_nil, or_false] at this ⊢
      rw [this]
      tauto

theorem kept_slide (dim slide f0 f1 : ℕ) (hs : slide < dim) (hb : ∀ d < slide, d = f0 ∨ d = f1) :
    (keptAxes dim slide f0 f1)[slide]? = some slide := by
  unfold keptAxes shownAxes
  have e : List.range dim = List.range slide ++ slide :: (List.range' (slide + 1) (dim - slide - 1)) := by
    have h1 : dim = slide + (1 + (dim - slide - 1)) := by omega
    conv_lhs => rw [h1, List.range_add, List.range_add]
    simp only [List.range_one, List.map_append, List.map_cons, List.map_nil, Nat.add_zero, List.singleton_append,
      List.map_map]
    congr 2
    rw [List.range'_eq_map_range]
    apply List.map_congr_left
    intro k _
    simp only [Function.comp]
    omega
  rw [e, List.filter_append]
  have h1 : (List.range slide).filter (fun d => decide (d ∈ [slide, f0, f1])) = List.range slide := by
    rw [List.filter_eq_self]
    intro d hd
    rw [List.mem_range] at hd
    have := hb d hd
    simp only [List.mem_cons, List.not_mem_nil, or_false, decide_eq_true_eq]
    tauto
  rw [h1, List.getElem?_append_right (by simp)]
  simp

theorem kept_without (dim x y z : ℕ) (hy : y ≠ x) (hz : z ≠ x) :
    (shownAxes dim [x, y, z]).filter (fun d => decide (d ≠ x)) = shownAxes dim [y, z] := by
  unfold shownAxes
  rw [List.filter_filter]
  apply List.filter_congr
  intro d _
  rw [Bool.eq_iff_iff]
  simp only [ne_eq, List.mem_cons, List.not_mem_nil, or_false, Bool.and_eq_true, decide_eq_true_eq]
  constructor
  · rintro ⟨h1, h2⟩; tauto
  · rintro (rfl | rfl)
    · exact ⟨hy, by tauto⟩
    · exact ⟨hz, by tauto⟩

theorem kept_without' (dim x y z : ℕ) (hx : x ≠ y) (hz : z ≠ y) :
    (shownAxes dim [x, y, z]).filter (fun d => decide (d ≠ y)) = shownAxes dim [x, z] := by
  unfold shownAxes
  rw [List.filter_filter]
  apply List.filter_congr
  intro d _
  rw [Bool.eq_iff_iff]
  simp only [ne_eq, List.mem_cons, List.not_mem_nil, or_false, Bool.and_eq_true, decide_eq_true_eq]
  constructor
  · rintro ⟨h1, h2⟩; tauto
  · rintro (rfl | rfl)
    · exact ⟨hx, by tauto⟩
    · exact ⟨hz, by tauto⟩

/-- Every frame shows the cells of its slide and the view from the side those of all slides, if no axis before the slide
axis is summed over.  The edges between the cells are not where they are in the grid (`drawn`), and the titles are the
lower ends of the slides. -/
theorem C113_movie_partial {g : Grid K V} (hg : Regular g) (re : V →+ W) (a : Arr V) (ha : g.grid = some a)
    (p slide f0 f1 i0 : ℕ) (h3 : 3 ≤ g.dim) (hp : p < g.nProps) (hs : slide < g.dim) (h0 : f0 < g.dim)
    (h1 : f1 < g.dim) (hs0 : slide ≠ f0) (hs1 : slide ≠ f1) (h01 : f0 ≠ f1) (hb : ∀ d < slide, d = f0 ∨ d = f1)
    (hi0 : ∀ n, g.nPix[slide]? = some n → i0 < n) :
    ∃ m ns xs ss n0 x0 s0 n1 x1 s1, animate g re p slide [f0, f1] i0 false = (some m, .ok ()) ∧
      CentresOf g slide ns xs ss ∧ CentresOf g f0 n0 x0 s0 ∧ CentresOf g f1 n1 x1 s1 ∧
      Shows g re a p slide f1 [] m.edge ∧ m.edge.xs = drawn ns (titleOf (g.fourier.getD slide false) xs ss) ss ∧
      m.edge.ys = drawn n1 x1 s1 ∧ m.frames.length = ns ∧
      (∀ i < ns, ∃ fr, m.frames[i]? = some fr ∧ Shows g re a p f0 f1 [(slide, i)] fr.face ∧
        fr.face.xs = drawn n0 x0 s0 ∧ fr.face.ys = drawn n1 x1 s1 ∧
        fr.title = titleOf (g.fourier.getD slide false) xs ss + (i : K) * ss ∧
        m.edge.xs[i]? = some fr.box.1 ∧ m.edge.xs[i+1]? = some fr.box.2) ∧
      Shows g re a p f0 f1 [(slide, i0)] m.first.face ∧ m.first.face.xs = drawn n0 x0 s0 ∧
      m.first.face.ys = drawn n1 x1 s1 ∧ m.first.title = titleOf (g.fourier.getD slide false) xs ss ∧
      m.edge.xs[i0]? = some m.first.box.1 ∧ m.edge.xs[i0+1]? = some m.first.box.2 := by
  obtain ⟨ns, xs, ss, Cs, -, es⟩ := axisOf_eq hg hs
  obtain ⟨n0, x0, s0, C0, e0, -⟩ := axisOf_eq hg h0
  obtain ⟨n1, x1, s1, C1, e1, -⟩ := axisOf_eq hg h1
  have hns : g.nPix[slide]? = some ns := by obtain ⟨w, c, A, -⟩ := Cs; exact A.nPix
  have hn0 : g.nPix[f0]? = some n0 := by obtain ⟨w, c, A, -⟩ := C0; exact A.nPix
  have hn1 : g.nPix[f1]? = some n1 := by obtain ⟨w, c, A, -⟩ := C1; exact A.nPix
  have ns2 : 2 ≤ ns := by obtain ⟨w, c, -, h, -⟩ := Cs; exact h
  have n02 : 2 ≤ n0 := by obtain ⟨w, c, -, h, -⟩ := C0; exact h
  have n12 : 2 ≤ n1 := by obtain ⟨w, c, -, h, -⟩ := C1; exact h
  obtain ⟨X, hX⟩ : ∃ X, X = drawn ns (titleOf (g.fourier.getD slide false) xs ss) ss := ⟨_, rfl⟩
  have ds : edgesOr (slideAxis g slide) = .ok X := by
    unfold edgesOr; rw [es, axisEdges_even _ _ _ ns2, hX]
  have d0 : edgesOr (axisOf g f0) = .ok (drawn n0 x0 s0) := by
    unfold edgesOr; rw [e0, axisEdges_even _ _ _ n02]
  have d1 : edgesOr (axisOf g f1) = .ok (drawn n1 x1 s1) := by
    unfold edgesOr; rw [e1, axisEdges_even _ _ _ n12]
  have lX : X.length = ns + 1 := by rw [hX, drawn_length]
  -- the view from the side
  obtain ⟨sh1, v1⟩ := pair_image hg re a p slide f1 ns n1 hs1 hs h1 hns hn1 (fun _ n => .all n) []
    (fun _ _ _ _ => .inl rfl) (by simp) (edgeImage g re a p slide f0 f1) (by
      unfold edgeImage keptAxes
      rw [kept_without' g.dim slide f0 f1 hs0 (Ne.symm h01)])
  have pe := pcolor_ok (xs := X) (ys := drawn n1 x1 s1) sh1 lX (drawn_length _ _ _)
  -- the cross sections
  have face : ∀ i < ns, ∃ img, faceImage g re a p slide f0 f1 i = .ok img ∧ img.shape = [n1, n0] ∧
      ∀ i' < n0, ∀ j < n1, img.get [j, i'] = sumAt re a g.nPix ((f0, i') :: (f1, j) :: [(slide, i)]) p := by
    intro i hi
    have hk := kept_slide g.dim slide f0 f1 hs hb
    refine ⟨_, ?_, pair_image hg re a p f0 f1 n0 n1 h01 h0 h1 hn0 hn1 (fun d n => if d = slide then .one i else .all n)
      [(slide, i)] ?_ ?_ _ rfl⟩
    · unfold faceImage
      simp only [hk]
      have hle : ¬ g.nPix.getD slide 0 ≤ i := by rw [List.getD_eq_getElem?_getD, hns]; simpa using hi
      rw [if_neg hle]
      unfold keptAxes
      rw [kept_without g.dim slide f0 f1 (Ne.symm hs0) (Ne.symm hs1)]
    · intro d n hd _
      by_cases e : d = slide
      · rw [if_pos e]
        subst e
        rw [hns] at hd; cases hd
        exact .inr ⟨i, hi, rfl⟩
      · rw [if_neg e]; exact .inl rfl
    · intro d k
      simp only [List.mem_singleton, Prod.mk.injEq, List.mem_cons, List.not_mem_nil, or_false, not_or]
      constructor
      · rintro ⟨rfl, rfl⟩
        exact ⟨⟨hs0, hs1⟩, ns, hns, by simp⟩
      · rintro ⟨-, n, -, h⟩
        by_cases e : d = slide
        · rw [if_pos e] at h
          simp only [Sel.one.injEq] at h
          exact ⟨e, h.symm⟩
        · rw [if_neg e] at h; cases h
  have fr : ∀ t < ns, ∀ i < ns, ∃ f, frame g re a p slide f0 f1 (slideAxis g slide) X (drawn n0 x0 s0) (drawn n1 x1 s1) t i =
      .ok f ∧ Shows g re a p f0 f1 [(slide, i)] f.face ∧ f.face.xs = drawn n0 x0 s0 ∧ f.face.ys = drawn n1 x1 s1 ∧
      f.title = titleOf (g.fourier.getD slide false) xs ss + (t : K) * ss ∧ X[i]? = some f.box.1 ∧
      X[i+1]? = some f.box.2 := by
    intro t ht i hi
    obtain ⟨img, f1', f2, f3⟩ := face i hi
    have hpos : (slideAxis g slide)[t]? = some (titleOf (g.fourier.getD slide false) xs ss + (t : K) * ss) := by
      rw [es]; simp [ht]
    have hx1 : X[i]? = some (X[i]'(by omega)) := List.getElem?_eq_getElem _
    have hx2 : X[i+1]? = some (X[i+1]'(by omega)) := List.getElem?_eq_getElem _
    have pc := pcolor_ok (xs := drawn n0 x0 s0) (ys := drawn n1 x1 s1) f2 (drawn_length _ _ _) (drawn_length _ _ _)
    refine ⟨⟨_, (X[i]'(by omega), X[i+1]'(by omega)), ⟨drawn n0 x0 s0, drawn n1 x1 s1, false,
      fun i j => img.get [j, i]⟩⟩, ?_, ?_, rfl, rfl, rfl, hx1, hx2⟩
    · unfold frame
      rw [hpos, hx1, hx2]
      simp only [f1', pc]
    · refine ⟨?_, rfl, ?_⟩
      · intro m0 m1 hm0 hm1
        rw [hn0] at hm0
        rw [hn1] at hm1
        cases hm0
        cases hm1
        exact ⟨drawn_length _ _ _, drawn_length _ _ _⟩
      · intro m0 m1 i' j hm0 hm1 hi' hj
        rw [hn0] at hm0
        rw [hn1] at hm1
        cases hm0
        cases hm1
        exact f3 i' hi' j hj
  obtain ⟨first, hfirst, q1, q2, q3, q4, q5, q6⟩ := fr 0 (by omega) i0 (hi0 ns hns)
  obtain ⟨frames, hfr⟩ := mapE_total (fun i => frame g re a p slide f0 f1 (slideAxis g slide) X (drawn n0 x0 s0)
    (drawn n1 x1 s1) i i) (List.range (slideAxis g slide).length) (by
      intro i hi
      rw [es] at hi
      simp only [List.length_map, List.length_range, List.mem_range] at hi
      obtain ⟨f, hf, -⟩ := fr i hi i hi
      exact ⟨f, hf⟩)
  obtain ⟨l1, l2⟩ := (mapE_ok_iff _ _ _).1 hfr
  have lsl : (slideAxis g slide).length = ns := by rw [es]; simp
  refine ⟨⟨⟨X, drawn n1 x1 s1, false, fun i j => (edgeImage g re a p slide f0 f1).get [j, i]⟩, first, frames⟩, ns, xs, ss,
    n0, x0, s0, n1, x1, s1, ?_, Cs, C0, C1, ?_, hX, rfl, ?_, ?_, q1, q2, q3, ?_, q5, q6⟩
  · unfold animate
    rw [ha]
    simp only
    rw [if_neg (by
      rintro (h | h | h | ⟨d, hd, h⟩)
      · omega
      · omega
      · omega
      · simp only [List.mem_cons, List.not_mem_nil, or_false] at hd
        omega)]
    simp only [ds, d0, d1, movie, pe, hfirst, hfr]
    rfl
  · refine ⟨?_, rfl, ?_⟩
    · intro m0 m1 hm0 hm1
      rw [hns] at hm0
      rw [hn1] at hm1
      cases hm0
      cases hm1
      exact ⟨lX, drawn_length _ _ _⟩
    · intro m0 m1 i j hm0 hm1 hi hj
      rw [hns] at hm0
      rw [hn1] at hm1
      cases hm0
      cases hm1
      exact v1 i hi j hj
  · rw [l1]; simp [lsl]
  · intro i hi
    obtain ⟨f, hf1, hf2⟩ := l2 i i (by simp [lsl, hi])
    obtain ⟨f', hf', rest⟩ := fr i hi i hi
    rw [hf'] at hf2
    cases hf2
    exact ⟨f, hf1, rest⟩
  · rw [q4]; simp

/-- What `animate` refuses: nothing is drawn. -/
theorem C113_animate_refused (g : Grid K V) (re : V →+ W) (p slide : ℕ) (face : List ℕ) (i0 : ℕ) (still : Bool)
    (h : g.grid = none ∨ g.dim < 3 ∨ g.nProps ≤ p ∨ g.dim ≤ slide ∨ (∃ d ∈ face, g.dim ≤ d) ∨ face.length ≠ 2) :
    animate g re p slide face i0 still = (none, .error .value) := by
  unfold animate
  rcases hg : g.grid with _ | a
  · rfl
  · simp only
    by_cases hc : g.dim < 3 ∨ g.nProps ≤ p ∨ g.dim ≤ slide ∨ (∃ d ∈ face, g.dim ≤ d)
    · rw [if_pos hc]
    · rw [if_neg hc]
      have hl : face.length ≠ 2 := by
        rcases h with h | h | h | h | h | h
        · rw [hg] at h; cases h
        · exact absurd (.inl h) hc
        · exact absurd (.inr (.inl h)) hc
        · exact absurd (.inr (.inr (.inl h))) hc
        · exact absurd (.inr (.inr (.inr h))) hc
        · exact h
      match face, hl with
      | [], _ => rfl
      | [_], _ => rfl
      | [_, _], hl => exact absurd rfl hl
      | _ :: _ :: _ :: _, _ => rfl

/-- The edges that are drawn between the cells are never those of the grid: for positions the first cell is drawn half a
cell too wide and the last one with half its width. -/
theorem C113_drawn_edges_wrong (n : ℕ) (w c : K) (hn : 2 ≤ n) (hw : 0 < w) :
    drawn n (c - n * w / 2 + w / 2) w ≠ edges n w c ∧
    ∀ k, 0 < k → k < n → ∃ x y, (drawn n (c - n * w / 2 + w / 2) w)[k]? = some x ∧ (edges n w c)[k]? = some y ∧
      x = y + w / 2 := by
  have key : ∀ k, 0 < k → k < n → ∃ x y, (drawn n (c - n * w / 2 + w / 2) w)[k]? = some x ∧
      (edges n w c)[k]? = some y ∧ x = y + w / 2 := by
    intro k h0 hk
    have e1 : (drawn n (c - n * w / 2 + w / 2) w)[k]? = some (c - n * w / 2 + w / 2 + (k : K) * w) := by
      simp only [drawn, List.getElem?_map]
      rw [List.getElem?_range (by omega)]
      simp only [Option.map_some]
      rw [if_neg (by omega), if_neg (by omega)]
    have e2 : (edges n w c)[k]? = some (c - n * w / 2 + (k : K) * w) := by
      simp only [edges, List.getElem?_map]
      rw [List.getElem?_range (by omega)]
      rfl
    exact ⟨_, _, e1, e2, by ring⟩
  refine ⟨?_, key⟩
  intro h
  obtain ⟨x, y, h1, h2, h3⟩ := key 1 (by omega) (by omega)
  rw [h, h2] at h1
  simp only [Option.some.injEq] at h1
  rw [h1] at h3
  have : w / 2 = 0 := by
    have := h3
    rwa [left_eq_add] at this
  have : 0 < w / 2 := half_pos hw
  exact this.ne' ‹w / 2 = 0›

/-- The slides cannot run along the fourth or a later axis: this raises, whatever is chosen. -/
theorem C113_late_axis_fails (g : Grid K V) (re : V →+ W) (p slide f0 f1 i0 : ℕ) (still : Bool) (h : 3 ≤ slide) :
    ∃ e, animate g re p slide [f0, f1] i0 still = (none, .error e) := by
  have hk : (keptAxes g.dim slide f0 f1)[slide]? = none := by
    rw [List.getElem?_eq_none_iff]
    have hnd : (keptAxes g.dim slide f0 f1).Nodup := List.nodup_range.filter _
    have hsub : ∀ d ∈ keptAxes g.dim slide f0 f1, d ∈ [slide, f0, f1] := by
      intro d hd
      exact ((mem_shownAxes _ _ _).1 hd).2
    have := (List.subperm_of_subset hnd hsub).length_le
    simp only [List.length_cons, List.length_nil] at this
    omega
  have hface : ∀ a i, faceImage g re a p slide f0 f1 i = .error .index := by
    intro a i
    unfold faceImage
    simp only [hk]
  have hframe : ∀ a pos ax0 ax1 ax2 t i, ∃ e, frame g re a p slide f0 f1 pos ax0 ax1 ax2 t i = .error e := by
    intro a pos ax0 ax1 ax2 t i
    unfold frame
    split
    · rw [hface]; exact ⟨_, rfl⟩
    · exact ⟨_, rfl⟩
  unfold animate
  split
  · exact ⟨_, rfl⟩
  · rename_i a _
    split
    · exact ⟨_, rfl⟩
    · simp only
      split
      · rename_i ax0 ax1 ax2 _ _ _
        have hm : ∃ e, movie g re a p slide f0 f1 i0 ax0 ax1 ax2 = .error e := by
          unfold movie
          split
          · exact ⟨_, rfl⟩
          · obtain ⟨e, he⟩ := hframe a (slideAxis g slide) ax0 ax1 ax2 0 i0
            rw [he]
            exact ⟨_, rfl⟩
        obtain ⟨e, he⟩ := hm
        rw [he]
        exact ⟨_, rfl⟩
      · exact ⟨_, rfl⟩

/-- A still picture ends with an exception, whatever is shown. -/
theorem C113_still_fails (g : Grid K V) (re : V →+ W) (p slide : ℕ) (face : List ℕ) (i0 : ℕ) :
    ∃ e, (animate g re p slide face i0 true).2 = .error e := by
  unfold animate
  split
  · exact ⟨_, rfl⟩
  · split
    · exact ⟨_, rfl⟩
    · split
      · split
        · split
          · exact ⟨_, rfl⟩
          · exact ⟨_, rfl⟩
        · exact ⟨_, rfl⟩
      · exact ⟨_, rfl⟩

/-- The whole property for animations: the slides can run along any axis, and the cells are drawn at their edges. -/
def C113_full : Prop :=
  ∀ (g : Grid ℚ ℚ) (a : Arr ℚ) (p slide f0 f1 : ℕ), Regular g → g.grid = some a → p < g.nProps → slide < g.dim →
    f0 < g.dim → f1 < g.dim → slide ≠ f0 → slide ≠ f1 → f0 ≠ f1 → g.fourier = List.replicate g.dim false →
    ∃ m, animate g (AddMonoidHom.id ℚ) p slide [f0, f1] 0 false = (some m, .ok ()) ∧
      ∀ fr ∈ m.frames, g.axes[f0]? = some fr.face.xs ∧ g.axes[f1]? = some fr.face.ys

/-- A cube of two cells in each direction, with a different value in each cell. -/
def demo : Grid ℚ ℚ := Verif.Map.plainGrid [2, 2, 2] 1 (fun i => (i.getD 0 0 : ℚ) + 10 * i.getD 1 0 + 100 * i.getD 2 0)

theorem demo_regular : Regular demo := Verif.Map.plainGrid_regular _ _ _ (by decide)

/-- No movie of a map draws the cells at their edges. -/
theorem C113_movie_edges_wrong {g : Grid K V} (hg : Regular g) (re : V →+ W) (p slide f0 f1 i0 : ℕ)
    (h3 : 3 ≤ g.dim) (hp : p < g.nProps) (hs : slide < g.dim) (h0 : f0 < g.dim)
    (h1 : f1 < g.dim) (hs0 : slide ≠ f0) (hs1 : slide ≠ f1) (h01 : f0 ≠ f1) (hb : ∀ d < slide, d = f0 ∨ d = f1)
    (hi0 : ∀ n, g.nPix[slide]? = some n → i0 < n) (hf : g.fourier.getD f0 false = false) (m : Movie K W)
    (hm : animate g re p slide [f0, f1] i0 false = (some m, .ok ())) :
    m.frames ≠ [] ∧ ∀ fr ∈ m.frames, g.axes[f0]? ≠ some fr.face.xs := by
  rcases ha : g.grid with _ | a
  · unfold animate at hm
    rw [ha] at hm
    simp at hm
  · obtain ⟨m', ns, xs, ss, n0, x0, s0, n1, x1, s1, e, Cs, C0, -, -, -, -, l, hfr, -⟩ :=
      C113_movie_partial hg re a ha p slide f0 f1 i0 h3 hp hs h0 h1 hs0 hs1 h01 hb hi0
    rw [hm] at e
    simp only [Prod.mk.injEq, Option.some.injEq, and_true] at e
    subst e
    have ns2 : 2 ≤ ns := by obtain ⟨w, c, -, h, -⟩ := Cs; exact h
    refine ⟨?_, ?_⟩
    · intro e
      rw [e] at l
      simp at l
      omega
    · intro fr hmem
      obtain ⟨i, hi⟩ := List.getElem?_of_mem hmem
      have hi' : i < ns := by
        rw [← l]
        exact (List.getElem?_eq_some_iff.1 hi).1
      obtain ⟨fr', hfr', -, hx, -⟩ := hfr i hi'
      rw [hi] at hfr'
      cases hfr'
      obtain ⟨n, w, c, hn, hw, A⟩ := hg.axis f0 h0
      obtain ⟨w', c', A', -, hpos, -⟩ := C0
      have en : n0 = n := by
        have := A.nPix
        rw [A'.nPix] at this
        simpa using this
      have ew : w' = w := by
        have := A.pix
        rw [A'.pix] at this
        simpa using this
      have ec : c' = c := by
        have := A.center
        rw [A'.center] at this
        simpa using this
      obtain ⟨e1, e2⟩ := hpos hf
      rw [hx, A.axes, e1, e2, en, ew, ec]
      intro h
      simp only [Option.some.injEq] at h
      exact (C113_drawn_edges_wrong n w c hn hw).1 h.symm

theorem C113_full_false : ¬ C113_full := by
  intro h
  obtain ⟨m, hm, hfr⟩ := h demo _ 0 2 0 1 demo_regular rfl (by decide) (by decide) (by decide) (by decide) (by decide)
    (by decide) (by decide) rfl
  have := C113_movie_edges_wrong demo_regular (AddMonoidHom.id ℚ) 0 2 0 1 0 (by decide) (by decide) (by decide)
    (by decide) (by decide) (by decide) (by decide) (by decide) (by decide) (by
      intro n hn
      have : some 2 = some n := hn
      cases this
      decide) rfl m hm
  obtain ⟨hne, hw⟩ := this
  rcases hf : m.frames with _ | ⟨fr, l⟩
  · exact hne hf
  · exact hw fr (by rw [hf]; simp) (hfr fr (by rw [hf]; simp)).1

/-- Two neighbouring cells of the cube seen along the third axis, and only its first layer. -/
example : (visualize demo (AddMonoidHom.id ℚ) [0, 1] none 0).toOption.map
      (fun pic => (pic.mesh.xs, pic.mesh.val 0 1, pic.mesh.val 1 0)) = some ([-1, 0, 1], 120, 102) ∧
    (visualize demo (AddMonoidHom.id ℚ) [0, 1] (some [-2]) (-1)).toOption.map
      (fun pic => (pic.mesh.val 0 1, pic.mesh.val 1 0)) = some (10, 1) ∧
    (visualize demo (AddMonoidHom.id ℚ) [1, 0] (some [0]) 0).toOption.map
      (fun pic => (pic.mesh.val 0 1, pic.mesh.val 1 0)) = some (10, 1) := by decide +kernel

/-- The cube cannot be shown with a slice too many, or along an axis it does not have. -/
example : (visualize demo (AddMonoidHom.id ℚ) [0, 1] (some [0, 0]) 0).toOption.isNone ∧
    (visualize demo (AddMonoidHom.id ℚ) [0, 3] none 0).toOption.isNone := by decide +kernel

/-- The movie of the cube: two frames, the inner edge at the centre of the second cell. -/
example : (animate demo (AddMonoidHom.id ℚ) 0 2 [0, 1] 0 false).1.map (fun m => m.frames.map (fun fr => fr.title)) =
      some [-1, 0] ∧
    (animate demo (AddMonoidHom.id ℚ) 0 2 [0, 1] 0 false).1.map (fun m => m.frames.map (fun fr => fr.box)) =
      some [(-3/2, 0), (0, 1/2)] ∧
    (animate demo (AddMonoidHom.id ℚ) 0 2 [0, 1] 0 false).1.map (fun m => m.frames.map (fun fr => fr.face.val 0 1)) =
      some [10, 110] ∧
    (animate demo (AddMonoidHom.id ℚ) 0 2 [0, 1] 0 false).1.map (fun m => m.first.face.xs) = some [-1, 1/2, 1] := by
  decide +kernel

end Verif.Pic
