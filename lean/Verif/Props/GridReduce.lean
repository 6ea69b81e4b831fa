import Verif.Lemmas.GridReduce
import Verif.Spec.GridReduce
import Verif.Props.GridFT

/-!
# C25, C62: collapsing and down-sampling
-/

set_option linter.unusedSectionVars false

namespace Verif.Map

open Verif.Sim (Err)
open Spec

variable {K V : Type}

/-! ## Lemmas -/

theorem keep_aux {α : Type} (l : List α) (ax k : ℕ) :
    ((l.zipIdx k).filter (fun p => decide (p.2 ∉ [ax + k]))).map (·.1) = l.eraseIdx ax := by
  induction l generalizing ax k with
  | nil => simp
  | cons x l ih =>
    rw [List.zipIdx_cons, List.filter_cons]
    cases ax with
    | zero =>
      simp only [Nat.zero_add, List.mem_singleton, not_true_eq_false, decide_false,
        Bool.false_eq_true, if_false, List.eraseIdx_cons_zero]
      have : (l.zipIdx (k + 1)).filter (fun p => decide (¬ p.2 = k)) = l.zipIdx (k + 1) := by
        rw [List.filter_eq_self]
        intro p hp
        have := List.le_snd_of_mem_zipIdx hp
        simp only [decide_eq_true_eq]
        omega
      rw [this, List.zipIdx_map_fst]
    | succ ax =>
      have h1 : decide (k ∉ [ax + 1 + k]) = true := by simp
      simp only [h1, if_true, List.map_cons, List.eraseIdx_cons_succ]
      rw [← ih ax (k + 1)]
      simp only [show ax + 1 + k = ax + (k + 1) by omega]

theorem keepAxes_one {α : Type} (l : List α) (ax : ℕ) : keepAxes [ax] l = l.eraseIdx ax := by
  have := keep_aux l ax 0
  simpa [keepAxes] using this

theorem getElem?_erase {α : Type} (l : List α) (ax i : ℕ) :
    (l.eraseIdx ax)[i]? = l[if i < ax then i else i + 1]? := by
  rw [List.getElem?_eraseIdx]
  split <;> rfl

theorem insertIdx_concat (c : List ℕ) (p ax j : ℕ) (h : ax ≤ c.length) :
    (c ++ [p]).insertIdx ax j = c.insertIdx ax j ++ [p] := by
  induction c generalizing ax with
  | nil =>
    have : ax = 0 := by simpa using h
    subst this
    rfl
  | cons x c ih =>
    cases ax with
    | zero => rfl
    | succ ax =>
      simp only [List.cons_append, List.insertIdx_succ_cons]
      rw [ih ax (by simpa using h)]

section
variable [Field K] [LinearOrder K] [AddCommGroup V] [Module K V]

theorem without_dropAxes (g : Grid K V) (ax : ℕ) : Without g (g.dropAxes [ax]) ax := by
  constructor <;> simp [Grid.dropAxes, keepAxes_one]

theorem Spec.Without.regular {g h : Grid K V} {ax : ℕ} (hw : Without g h ax) (hg : Regular g)
    (hax : ax < g.dim) (hd : ∀ b, h.grid = some b → b.shape = h.nPix ++ [h.nProps]) :
    Regular h ∧ h.dim = g.dim - 1 := by
  have hdim : h.dim = g.dim - 1 := by
    show h.center.vals.length = _
    rw [hw.center, List.length_eraseIdx]
    exact if_pos hax
  have he : ∀ {α : Type} (l : List α), l.length = g.dim → (l.eraseIdx ax).length = h.dim := by
    intro α l hl
    rw [List.length_eraseIdx, hl, if_pos hax, hdim]
  refine ⟨⟨?_, ?_, ?_, ?_, ?_, ?_, ?_, ?_, ?_, hd⟩, hdim⟩
  · rw [hw.nPix]; exact he _ hg.nPix
  · rw [hw.pix]; exact he _ hg.pix
  · rw [hw.side]; exact he _ hg.side
  · rw [hw.axes]; exact he _ hg.axes
  · rw [hw.centers]; exact he _ hg.centers
  · rw [hw.fcenters]; exact he _ hg.fcenters
  · rw [hw.faxes]; exact he _ hg.faxes
  · rw [hw.fourier]; exact he _ hg.fourier
  · intro i hi
    obtain ⟨n, w, c, h1, h2, q⟩ := hg.axis (if i < ax then i else i + 1) (by split <;> omega)
    refine ⟨n, w, c, h1, h2, ⟨?_, ?_, ?_, ?_, ?_, ?_, ?_, ?_⟩⟩
    · rw [hw.nPix, getElem?_erase]; exact q.nPix
    · rw [hw.pix, getElem?_erase]; exact q.pix
    · rw [hw.center, getElem?_erase]; exact q.center
    · rw [hw.side, getElem?_erase]; exact q.side
    · rw [hw.axes, getElem?_erase]; exact q.axes
    · rw [hw.centers, getElem?_erase]; exact q.centers
    · rw [hw.fcenters, getElem?_erase]; exact q.fcenters
    · rw [hw.faxes, getElem?_erase]; exact q.faxes

/-- The weights that are understood as intended: none, one for each position along the axis, or
one for each cell. -/
def GoodWeights (g : Grid K V) (ax : ℕ) (w : Option (Arr K)) : Prop :=
  ∀ x, w = some x → (∃ n, g.nPix[ax]? = some n ∧ x.shape = [n]) ∨ x.shape = g.nPix

theorem bindex_append (s t i j : List ℕ) (h : i.length = s.length) :
    bindex (s ++ t) (i ++ j) = bindex s i ++ bindex t j := by
  unfold bindex
  exact List.zipWith_append h.symm

/-- The plan for one axis. -/
theorem plan_one (g : Grid K V) (hg : Regular g) (ax : ℕ) (hax : ax < g.dim)
    (w : Option (Arr K)) (hw : GoodWeights g ax w) (mode : Mode) (a : Arr V)
    (ha : a.shape = g.nPix ++ [g.nProps]) (n : ℕ) (hn : g.nPix[ax]? = some n) :
    ∃ (w' nrm : Arr K), collapsePlan g a [ax] (w.map (fun x => [x])) (some mode) =
        .ok [(ax, w', nrm)] ∧
      w'.shape.length = a.shape.length ∧ BFits a.shape w'.shape ∧ w'.shape[ax]? = some n ∧
      (∀ i, Valid a.shape i → w'.get (bindex w'.shape i) = weightAt w ax i.dropLast) ∧
      collapseNorm mode w' ax = .ok nrm := by
  obtain ⟨n', wd, c, hn2, -, q⟩ := hg.axis ax hax
  have hnn : n' = n := by
    have := q.nPix
    rw [hn] at this
    exact (Option.some.inj this).symm
  subst hnn
  have hcl : (g.centers.getD ax []).length = n' := by
    rw [getD_of_some q.centers]
    simp [middles]
  have hal : a.shape.length = g.dim + 1 := by rw [ha, List.length_append, hg.nPix]; rfl
  have han : a.shape[ax]? = some n' := by
    rw [ha, List.getElem?_append_left (by rw [hg.nPix]; exact hax), hn]
  -- the reshaped weights
  obtain ⟨x, hx, hxw⟩ : ∃ x : Arr K, givenWeights g [ax] (w.map (fun x => [x])) = [x] ∧
      ((∃ m, x.shape = [m] ∧ m = n' ∧ ∀ c : List ℕ, weightAt w ax c = x.get [c.getD ax 0]) ∨
       (x.shape = g.nPix ∧ x.shape.length ≠ 1 ∧ ∀ c : List ℕ, weightAt w ax c = x.get c)) := by
    cases w with
    | none =>
      refine ⟨_, rfl, .inl ⟨n', ?_, rfl, fun c => rfl⟩⟩
      simp only [hcl]
    | some x =>
      refine ⟨x, rfl, ?_⟩
      by_cases h1 : x.shape.length = 1
      · left
        rcases hw x rfl with ⟨m, hm, hs⟩ | hs
        · rw [hn] at hm
          exact ⟨n', by rw [hs, Option.some.inj hm], rfl, fun c => by simp [weightAt, h1]⟩
        · refine ⟨n', ?_, rfl, fun c => by simp [weightAt, h1]⟩
          rw [hs] at h1 ⊢
          obtain ⟨m, hm⟩ := List.length_eq_one_iff.1 h1
          rw [hm] at hn ⊢
          have : ax = 0 := by
            by_contra h0
            rw [List.getElem?_eq_none (by simp; omega)] at hn
            cases hn
          subst this
          simp at hn
          rw [hn]
      · right
        rcases hw x rfl with ⟨m, hm, hs⟩ | hs
        · rw [hs] at h1; simp at h1
        · exact ⟨hs, h1, fun c => by simp [weightAt, h1]⟩
  obtain ⟨w', hw', hl', hf', hn', hv'⟩ : ∃ w' : Arr K, reshapeWeight a.shape g.dim n' ax x = .ok w' ∧
      w'.shape.length = a.shape.length ∧ BFits a.shape w'.shape ∧ w'.shape[ax]? = some n' ∧
      ∀ i, Valid a.shape i → w'.get (bindex w'.shape i) = weightAt w ax i.dropLast := by
    rcases hxw with ⟨m, hs, rfl, hwt⟩ | ⟨hs, h1, hwt⟩
    · refine ⟨⟨(List.replicate (g.dim + 1) 1).set ax m, fun i => x.get [i.getD ax 0]⟩, ?_, ?_, ?_, ?_,
        ?_⟩
      · unfold reshapeWeight
        rw [if_pos (by rw [hs]; rfl), if_pos hs]
      · simp [hal]
      · simp only
        rw [← hal]
        exact fits_set _ _ _ han
      · simp only
        rw [List.getElem?_set_self (by simp; omega)]
      · intro i hi
        simp only
        have hil := Valid.length hi
        rw [hwt]
        have hb : (bindex ((List.replicate (g.dim + 1) 1).set ax m) i).getD ax 0 = i.getD ax 0 := by
          have hlt : ax < i.length := by omega
          unfold bindex
          rw [List.getD_eq_getElem?_getD, List.getD_eq_getElem?_getD, List.getElem?_zipWith,
            List.getElem?_set_self (by simp; omega), List.getElem?_eq_getElem hlt]
          simp only [Option.getD_some]
          rw [if_neg (by omega)]
        have hd : i.dropLast.getD ax 0 = i.getD ax 0 := by
          rw [List.getD_eq_getElem?_getD, List.getD_eq_getElem?_getD, List.getElem?_dropLast,
            if_pos (by omega)]
        rw [hb, hd]
    · refine ⟨⟨x.shape ++ [1], fun i => x.get i.dropLast⟩, ?_, ?_, ?_, ?_, ?_⟩
      · unfold reshapeWeight
        rw [if_neg h1, if_pos (by rw [hs, hg.nPix]), if_pos (by rw [hs, ha, List.dropLast_concat])]
      · simp [hs, hg.nPix, hal]
      · simp only
        rw [ha, hs]
        exact fits_append (fits_refl _) (.cons (.inr rfl) .nil)
      · simp only
        rw [hs, List.getElem?_append_left (by rw [hg.nPix]; exact hax), hn]
      · intro i hi
        rw [ha] at hi
        obtain ⟨j, p, rfl, hj, hp⟩ := valid_split hi
        simp only
        rw [hs, bindex_append _ _ _ _ (Valid.length hj), bindex_self _ _ hj]
        simp only [bindex, List.zipWith_cons_cons, List.zipWith_nil_left, List.dropLast_concat]
        rw [hwt]
  obtain ⟨nrm, hnrm, -⟩ := collapseNorm_fits a mode ax n' han w' hl' hf' hn' _ hv'
  refine ⟨w', nrm, ?_, hl', hf', hn', hv', hnrm⟩
  unfold collapsePlan
  rw [if_neg (by simpa using hax), hx, if_neg (by simp)]
  simp only [List.zip_cons_cons, List.zip_nil_right, mapE, hcl, hw', hnrm]

/-- The data after collapsing one axis. -/
theorem collapse_data (g : Grid K V) (hg : Regular g) (ax : ℕ) (hax : ax < g.dim)
    (w : Option (Arr K)) (hw : GoodWeights g ax w) (mode : Mode) (n : ℕ)
    (hn : g.nPix[ax]? = some n) (a : Arr V) (ha : a.shape = g.nPix ++ [g.nProps]) :
    ∃ plan, (∀ a' : Arr V, a'.shape = a.shape → collapsePlan g a' [ax] (w.map (fun x => [x]))
        (some mode) = .ok plan) ∧
      ∃ b, collapseLoop a plan = (b, .ok ()) ∧ b.shape = g.nPix.eraseIdx ax ++ [g.nProps] ∧
      ∀ c p, Valid (g.nPix.eraseIdx ax) c → p < g.nProps →
        cell b c p = (match mode with
          | .sum => (1 : K)
          | .average => alongAxis n ax c (weightAt w ax))⁻¹ •
          alongAxis n ax c (fun c' => weightAt w ax c' • cell a c' p) := by
  obtain ⟨w', nrm, hp, hl', hf', hn', hv', hnrm⟩ := plan_one g hg ax hax w hw mode a ha n hn
  have han : a.shape[ax]? = some n := by
    rw [ha, List.getElem?_append_left (by rw [hg.nPix]; exact hax), hn]
  obtain ⟨nrm', hnrm', hk1, hk2, hk3⟩ := collapseNorm_fits a mode ax n han w' hl' hf' hn' _ hv'
  have : nrm' = nrm := by rw [hnrm] at hnrm'; exact (Except.ok.inj hnrm').symm
  subst this
  obtain ⟨b, hb, hbs, hbv⟩ := collapseStep_fits a ax n han w' nrm' hl' hf' _ hv' hk1 hk2 _ hk3
  have hbs' : b.shape = g.nPix.eraseIdx ax ++ [g.nProps] := by
    rw [hbs, ha, List.eraseIdx_append_of_lt_length (by rw [hg.nPix]; exact hax)]
  refine ⟨[(ax, w', nrm')], ?_, b, ?_, hbs', ?_⟩
  · intro a' ha'
    rw [← hp]
    unfold collapsePlan
    rw [ha']
  · unfold collapseLoop
    rw [hb]
    rfl
  · intro c p hc hp'
    have hcl := Valid.length hc
    rw [List.length_eraseIdx, hg.nPix, if_pos hax] at hcl
    have hins : ∀ j, (c ++ [p]).insertIdx ax j = c.insertIdx ax j ++ [p] := by
      intro j
      exact insertIdx_concat c p ax j (by omega)
    have hv : Valid b.shape (c ++ [p]) := by
      rw [hbs']; exact valid_concat.2 ⟨hc, hp'⟩
    show b.get (c ++ [p]) = _
    rw [hbv _ hv]
    unfold alongAxis cell
    simp only [hins, List.dropLast_concat]
    cases mode <;> rfl

/-! ## C25 -/

/-- **C25, partial**: collapsing one axis, with no weights, weights for the positions along the axis,
or weights for the cells, removes exactly this axis; each remaining cell holds the weighted sum of
the cells along the axis (`mode='sum'`), or the weighted mean, if the weights do not add up to
zero (`mode='average'`). -/
theorem C25_one_axis_partial (g : Grid K V) (hg : Regular g) (ax : ℕ) (hax : ax < g.dim)
    (w : Option (Arr K)) (hw : GoodWeights g ax w) (mode : Mode) (a : Arr V)
    (ha : g.grid = some a) (n : ℕ) (hn : g.nPix[ax]? = some n) :
    ∃ g' b, g.collapse [ax] (w.map (fun x => [x])) (some mode) = (g', .ok ()) ∧
      Regular g' ∧ g'.dim = g.dim - 1 ∧ Without g g' ax ∧ g'.gridunits = g.gridunits ∧
      g'.grid = some b ∧
      ∀ c p, Valid g'.nPix c → p < g.nProps →
        (mode = .sum → cell b c p = alongAxis n ax c (fun c' => weightAt w ax c' • cell a c' p)) ∧
        (mode = .average → alongAxis n ax c (weightAt w ax) ≠ 0 →
          alongAxis n ax c (weightAt w ax) • cell b c p =
            alongAxis n ax c (fun c' => weightAt w ax c' • cell a c' p)) := by
  obtain ⟨plan, hplan, b, hb, hbs, hbv⟩ := collapse_data g hg ax hax w hw mode n hn a (hg.data a ha)
  have hwo : Without g ({ g.dropAxes [ax] with grid := some b } : Grid K V) ax := by
    have := without_dropAxes g ax
    exact ⟨this.center, this.side, this.pix, this.nPix, this.axunits, this.faxunits, this.axes,
      this.centers, this.faxes, this.fcenters, this.fourier, this.nProps, this.nObj, this.isPow⟩
  obtain ⟨hr, hd⟩ := hwo.regular hg hax (by
    intro b' hb'
    have := Option.some.inj hb'
    subst this
    rw [hwo.nPix, hwo.nProps]
    exact hbs)
  refine ⟨_, b, ?_, hr, hd, hwo, rfl, rfl, ?_⟩
  · unfold Grid.collapse
    rw [ha]
    simp only [hplan a rfl, hb]
  · intro c p hc hp
    rw [hwo.nPix] at hc
    have := hbv c p hc hp
    constructor
    · rintro rfl
      rw [this]
      simp
    · rintro rfl h0
      rw [this]
      simp only
      rw [smul_smul, mul_inv_cancel₀ h0, one_smul]

/-! ### Totals and means -/

theorem sum_swap {α β : Type} (l : List α) (m : List β) (f : α → β → V) :
    (l.map (fun x => (m.map (fun y => f x y)).sum)).sum =
      (m.map (fun y => (l.map (fun x => f x y)).sum)).sum := by
  induction l with
  | nil => simp
  | cons x l ih =>
    simp only [List.map_cons, List.sum_cons, ih]
    rw [sum_map_add']

theorem sum_flatMap' {α β : Type} (l : List α) (m : α → List β) (f : β → V) :
    ((l.flatMap m).map f).sum = (l.map (fun x => ((m x).map f).sum)).sum := by
  induction l with
  | nil => simp
  | cons x l ih => simp [ih]

theorem allCells_cons (n : ℕ) (s : List ℕ) : allCells (n :: s) =
    (List.range n).flatMap (fun i => (allCells s).map (fun c => i :: c)) := rfl

/-- Adding up along one axis first. -/
theorem sum_allCells (s : List ℕ) (ax n : ℕ) (hn : s[ax]? = some n) (f : List ℕ → V) :
    ((allCells (s.eraseIdx ax)).map (fun c => alongAxis n ax c f)).sum =
      ((allCells s).map f).sum := by
  induction s generalizing ax f with
  | nil => simp at hn
  | cons m s ih =>
    cases ax with
    | zero =>
      simp only [List.getElem?_cons_zero, Option.some.injEq] at hn
      subst hn
      simp only [List.eraseIdx_cons_zero, alongAxis, List.insertIdx_zero]
      rw [sum_swap, allCells_cons, sum_flatMap']
      simp only [List.map_map]
      rfl
    | succ ax =>
      simp only [List.getElem?_cons_succ] at hn
      simp only [List.eraseIdx_cons_succ]
      rw [allCells_cons, allCells_cons, sum_flatMap', sum_flatMap']
      congr 1
      apply List.map_congr_left
      intro i _
      simp only [List.map_map]
      have := ih ax hn (fun c : List ℕ => f (i :: c))
      rw [show List.map (f ∘ fun c => i :: c) (allCells s) =
        List.map (fun c => f (i :: c)) (allCells s) from rfl, ← this]
      rfl

/-- **C25**: summing over one axis preserves the total of every property. -/
theorem C25_total (g : Grid K V) (hg : Regular g) (ax : ℕ) (hax : ax < g.dim) (a : Arr V)
    (ha : g.grid = some a) (p : ℕ) (hp : p < g.nProps) :
    ∃ g' b, g.collapse [ax] none (some .sum) = (g', .ok ()) ∧ g'.grid = some b ∧
      total g' b p = total g a p := by
  obtain ⟨n, wd, c, -, -, q⟩ := hg.axis ax hax
  obtain ⟨g', b, h1, -, -, hwo, -, hb, hv⟩ := C25_one_axis_partial g hg ax hax none
    (by intro x h; cases h) .sum a ha n q.nPix
  refine ⟨g', b, h1, hb, ?_⟩
  unfold total
  rw [← sum_allCells g.nPix ax n q.nPix, hwo.nPix]
  congr 1
  apply List.map_congr_left
  intro c hc
  have := (hv c p (by rw [hwo.nPix]; exact (mem_allCells _ _).1 hc) hp).1 rfl
  rw [this]
  simp [weightAt]

end

/-- **C25**: a weighted mean (weights not negative, not all zero) lies between bounds for the
averaged values. -/
theorem C25_mean_bounds [Field K] [LinearOrder K] [IsStrictOrderedRing K] (g : Grid K K)
    (hg : Regular g) (ax : ℕ) (hax : ax < g.dim) (w : Option (Arr K)) (hw : GoodWeights g ax w)
    (a : Arr K) (ha : g.grid = some a) (n : ℕ) (hn : g.nPix[ax]? = some n) (lo hi : K) :
    ∃ g' b, g.collapse [ax] (w.map (fun x => [x])) (some .average) = (g', .ok ()) ∧
      g'.grid = some b ∧ ∀ c p, Valid g'.nPix c → p < g.nProps →
        (∀ j < n, 0 ≤ weightAt w ax (c.insertIdx ax j)) →
        (∃ j < n, weightAt w ax (c.insertIdx ax j) ≠ 0) →
        (∀ j < n, lo ≤ cell a (c.insertIdx ax j) p ∧ cell a (c.insertIdx ax j) p ≤ hi) →
        lo ≤ cell b c p ∧ cell b c p ≤ hi := by
  obtain ⟨g', b, h1, -, -, -, -, hb, hv⟩ := C25_one_axis_partial g hg ax hax w hw .average a ha n hn
  refine ⟨g', b, h1, hb, ?_⟩
  intro c p hc hp hw0 hwp hbd
  have key : ∀ (l : List ℕ), (∀ j ∈ l, j < n) →
      0 ≤ (l.map (fun j : ℕ => weightAt w ax (c.insertIdx ax j))).sum ∧
      ((∃ j ∈ l, weightAt w ax (c.insertIdx ax j) ≠ 0) →
        0 < (l.map (fun j : ℕ => weightAt w ax (c.insertIdx ax j))).sum) ∧
      (l.map (fun j : ℕ => weightAt w ax (c.insertIdx ax j))).sum * lo ≤
        (l.map (fun j : ℕ => weightAt w ax (c.insertIdx ax j) • cell a (c.insertIdx ax j) p)).sum ∧
      (l.map (fun j : ℕ => weightAt w ax (c.insertIdx ax j) • cell a (c.insertIdx ax j) p)).sum ≤
        (l.map (fun j : ℕ => weightAt w ax (c.insertIdx ax j))).sum * hi := by
    intro l hl
    induction l with
    | nil => simp
    | cons j l ih =>
      obtain ⟨i1, i2, i3, i4⟩ := ih (fun k hk => hl k (List.mem_cons_of_mem _ hk))
      have hj := hl j (List.mem_cons_self ..)
      have w0 := hw0 j hj
      obtain ⟨b1, b2⟩ := hbd j hj
      simp only [List.map_cons, List.sum_cons, smul_eq_mul] at *
      refine ⟨by linarith, ?_, ?_, ?_⟩
      · rintro ⟨k, hk, hk0⟩
        rcases List.mem_cons.1 hk with rfl | hk
        · have : 0 < weightAt w ax (c.insertIdx ax k) := lt_of_le_of_ne w0 (Ne.symm hk0)
          linarith
        · have := i2 ⟨k, hk, hk0⟩
          linarith
      · have := mul_le_mul_of_nonneg_left b1 w0
        linarith
      · have := mul_le_mul_of_nonneg_left b2 w0
        linarith
  obtain ⟨-, k2, k3, k4⟩ := key (List.range n) (fun j hj => List.mem_range.1 hj)
  obtain ⟨j, hj, hj0⟩ := hwp
  have hpos := k2 ⟨j, List.mem_range.2 hj, hj0⟩
  have hval := (hv c p hc hp).2 rfl (ne_of_gt hpos)
  unfold alongAxis at hval
  rw [smul_eq_mul] at hval
  rw [← hval] at k3 k4
  exact ⟨le_of_mul_le_mul_left k3 hpos, le_of_mul_le_mul_left k4 hpos⟩

section
variable [Field K] [LinearOrder K] [AddCommGroup V] [Module K V]

/-! ### Several axes -/

theorem collapseStep_dims (a b : Arr V) (ax : ℕ) (w nrm : Arr K)
    (h : collapseStep a ax w nrm = .ok b) : w.shape.length - 1 ≤ b.shape.length := by
  unfold collapseStep at h
  rcases h1 : broadcast (fun (x : V) (c : K) => c • x) a w with e | x
  · rw [h1] at h; cases h
  · rw [h1] at h
    simp only at h
    rcases h2 : x.sumAxis ax with e | y
    · rw [h2] at h; cases h
    · rw [h2] at h
      simp only at h
      have d1 := broadcast_dims _ _ _ _ h1
      have d2 : y.shape.length = x.shape.length - 1 := by
        unfold Arr.sumAxis at h2
        by_cases hlt : ax < x.shape.length
        · rw [if_pos hlt] at h2
          simp only [Except.ok.injEq] at h2
          subst h2
          simp only [List.length_eraseIdx, if_pos hlt]
        · rw [if_neg hlt] at h2; cases h2
      have d3 := broadcast_dims _ _ _ _ h
      have := le_max_right a.shape.length w.shape.length
      have := le_max_left y.shape.length nrm.shape.length
      omega

theorem collapseLoop_dims (a b : Arr V) (l : List (ℕ × Arr K × Arr K)) (d : ℕ) (hne : l ≠ [])
    (hl : ∀ p ∈ l, d ≤ p.2.1.shape.length - 1) (h : collapseLoop a l = (b, .ok ())) :
    d ≤ b.shape.length := by
  induction l generalizing a with
  | nil => exact absurd rfl hne
  | cons q l ih =>
    obtain ⟨ax, w, n⟩ := q
    unfold collapseLoop at h
    rcases hs : collapseStep a ax w n with e | c
    · rw [hs] at h; cases h
    · rw [hs] at h
      simp only at h
      by_cases hl0 : l = []
      · subst hl0
        have : c = b := by
          unfold collapseLoop at h
          exact (Prod.mk.injEq .. ▸ h).1
        subst this
        have := hl _ (List.mem_cons_self ..)
        have := collapseStep_dims a c ax w n hs
        simp only at *
        omega
      · exact ih c hl0 (fun p hp => hl p (List.mem_cons_of_mem _ hp)) h

theorem reshapeWeight_dims (shape : List ℕ) (d n ax : ℕ) (w w' : Arr K)
    (h : reshapeWeight shape d n ax w = .ok w') :
    d + 1 ≤ w'.shape.length ∧ (w.shape.length = d + 1 → w.shape.length ≠ 1 →
      w'.shape.length = d + 2) := by
  unfold reshapeWeight at h
  split_ifs at h with h1 h2 h3 h4 h5 h6 <;> simp only [Except.ok.injEq] at h <;> subst h
  · refine ⟨by simp, fun _ h => absurd h1 h⟩
  · refine ⟨by simp [h3], fun h => by omega⟩
  · simp [h5]

/-- The weights in a plan. -/
theorem plan_weights (g : Grid K V) (a : Arr V) (ax : List ℕ) (ws : Option (List (Arr K)))
    (mode : Option Mode) (plan : List (ℕ × Arr K × Arr K))
    (h : collapsePlan g a ax ws mode = .ok plan) :
    plan.length = ax.length ∧ ∀ p ∈ plan, ∃ w n, w ∈ givenWeights g ax ws ∧
      reshapeWeight a.shape g.dim n p.1 w = .ok p.2.1 := by
  unfold collapsePlan at h
  by_cases h1 : ∃ i ∈ ax, g.dim ≤ i
  · rw [if_pos h1] at h; cases h
  rw [if_neg h1] at h
  by_cases h2 : (givenWeights g ax ws).length ≠ ax.length
  · rw [if_pos h2] at h; cases h
  rw [if_neg h2] at h
  have h2 : (givenWeights g ax ws).length = ax.length := by simpa using h2
  rcases h3 : mapE (fun p : ℕ × Arr K => reshapeWeight a.shape g.dim (g.centers.getD p.1 []).length
      p.1 p.2) (ax.zip (givenWeights g ax ws)) with e | w'
  · rw [h3] at h; cases h
  rw [h3] at h
  simp only at h
  cases mode with
  | none => cases h
  | some m =>
    simp only at h
    rcases h4 : mapE (fun p : ℕ × Arr K => collapseNorm m p.2 p.1) (ax.zip w') with e | ns
    · rw [h4] at h; cases h
    rw [h4] at h
    simp only [Except.ok.injEq] at h
    subst h
    have l1 := mapE_length h3
    have l2 := mapE_length h4
    simp only [List.length_zip] at l1 l2
    refine ⟨by simp only [List.length_zip]; omega, ?_⟩
    intro p hp
    obtain ⟨i, hi⟩ := List.mem_iff_getElem?.1 hp
    obtain ⟨k, u, v⟩ := p
    rw [List.getElem?_zip_eq_some] at hi
    obtain ⟨hi1, hi2⟩ := hi
    rw [List.getElem?_zip_eq_some] at hi2
    obtain ⟨x, hx, hxw⟩ := mapE_get h3 i u hi2.1
    obtain ⟨x1, x2⟩ := x
    rw [List.getElem?_zip_eq_some] at hx
    have : x1 = k := by
      have := hx.1
      rw [hi1] at this
      exact (Option.some.inj this).symm
    subst this
    exact ⟨x2, _, List.mem_of_getElem? hx.2, hxw⟩

/-- **Several axes at once are never collapsed properly**, for any map, weights and mode: if the call
does not raise, the data keep at least as many axes as the map had, although two or more axes are
removed from its description. -/
theorem C25_several_axes_wrong (g g' : Grid K V) (ax : List ℕ) (ws : Option (List (Arr K)))
    (mode : Option Mode) (b : Arr V) (h2 : 2 ≤ ax.length)
    (h : g.collapse ax ws mode = (g', .ok ())) (hb : g'.grid = some b) :
    g.dim ≤ b.shape.length := by
  unfold Grid.collapse at h
  rcases ha : g.grid with _ | a
  · rw [ha] at h; simp at h
  rw [ha] at h
  simp only at h
  rcases hp : collapsePlan g a ax ws mode with e | plan
  · rw [hp] at h; simp at h
  rw [hp] at h
  simp only at h
  obtain ⟨hl, hw⟩ := plan_weights g a ax ws mode plan hp
  rcases hc : collapseLoop a plan with ⟨c, e | u⟩
  · rw [hc] at h; simp at h
  · rw [hc] at h
    simp only [Prod.mk.injEq, and_true] at h
    subst h
    have : c = b := Option.some.inj hb
    subst this
    refine collapseLoop_dims a c plan g.dim ?_ ?_ hc
    · intro e; subst e; simp at hl; omega
    · intro p hp
      obtain ⟨w, n, -, hr⟩ := hw p hp
      have := (reshapeWeight_dims _ _ _ _ _ _ hr).1
      omega

/-- **Weights for every property** (an array of the shape of the data) **never work**: if the call
does not raise, the data keep all their axes. -/
theorem C25_property_weights_wrong (g g' : Grid K V) (hg : Regular g) (ax : ℕ) (w : Arr K)
    (mode : Option Mode) (a b : Arr V) (ha : g.grid = some a) (hw : w.shape = a.shape)
    (h1 : 1 ≤ g.dim) (h : g.collapse [ax] (some [w]) mode = (g', .ok ())) (hb : g'.grid = some b) :
    g.dim + 1 ≤ b.shape.length := by
  unfold Grid.collapse at h
  rw [ha] at h
  simp only at h
  rcases hp : collapsePlan g a [ax] (some [w]) mode with e | plan
  · rw [hp] at h; simp at h
  rw [hp] at h
  simp only at h
  obtain ⟨hl, hwt⟩ := plan_weights g a [ax] (some [w]) mode plan hp
  have hal : a.shape.length = g.dim + 1 := by
    rw [hg.data a ha, List.length_append, hg.nPix]; rfl
  rcases hc : collapseLoop a plan with ⟨c, e | u⟩
  · rw [hc] at h; simp at h
  · rw [hc] at h
    simp only [Prod.mk.injEq, and_true] at h
    subst h
    have : c = b := Option.some.inj hb
    subst this
    refine collapseLoop_dims a c plan (g.dim + 1) ?_ ?_ hc
    · intro e; subst e; simp at hl
    · intro p hp
      obtain ⟨w', n, hm, hr⟩ := hwt p hp
      have : w' = w := by simpa [givenWeights] using hm
      subst this
      have := (reshapeWeight_dims _ _ _ _ _ _ hr).2 (by rw [hw, hal]) (by rw [hw, hal]; omega)
      omega

end

/-- The full statement of C25 (sums): any axes, in any order, are removed and the totals are
preserved. -/
def C25_full : Prop :=
  ∀ (g : Grid ℝ ℂ) (ax : List ℕ) (a : Arr ℂ), Regular g → g.grid = some a → ax.Nodup →
    (∀ i ∈ ax, i < g.dim) → ∃ g' b, g.collapse ax none (some .sum) = (g', .ok ()) ∧
      g'.grid = some b ∧ b.shape = g'.nPix ++ [g'.nProps] ∧
      g'.nPix = ((List.range g.dim).filter (fun i => decide (i ∉ ax))).map (fun i => g.nPix.getD i 0) ∧
      ∀ p < g.nProps, total g' b p = total g a p

theorem C25_full_false : ¬ C25_full := by
  intro h
  obtain ⟨g, hr, hl, hn, hu, hg, hd, hpx, hf, hp⟩ := new_square 1 (zeros [10, 10, 1]) rfl
  obtain ⟨g', b, h1, h2, h3, h4, -⟩ := h g [0, 1] _ hr hg (by simp) (by simp [hd])
  have := C25_several_axes_wrong g g' [0, 1] none (some .sum) b (by simp) h1 h2
  have h5 : g'.nPix = [] := by
    rw [h4, hd]
    rfl
  rw [h3, h5, hd] at this
  simp at this

section
variable [Field K] [LinearOrder K] [IsStrictOrderedRing K] [FloorRing K] [AddCommGroup V]
  [Module K V]

/-- **C25**: with `in_place=False` the same grid is returned as a new one (the map itself is an argument
that is not changed). -/
theorem C25_new_copy (g : Grid K V) (hg : Regular g) (hl : Labelled g)
    (hu : g.gridunits.length = g.nProps) (ax : ℕ) (hax : ax < g.dim) (w : Option (Arr K))
    (hw : GoodWeights g ax w) (mode : Mode) (a : Arr V) (ha : g.grid = some a) :
    ∃ g' h, g.collapse [ax] (w.map (fun x => [x])) (some mode) = (g', .ok ()) ∧
      g.collapseNew [ax] (w.map (fun x => [x])) (some mode) = .ok h ∧ Same g' h := by
  obtain ⟨n, wd, c, -, -, q⟩ := hg.axis ax hax
  obtain ⟨h, h1, h2, h3, h4⟩ := C28_copy_all g hg hl hu
  rw [ha] at h4
  obtain ⟨h5, a', ha', -⟩ := h2.values a ha
  rw [ha'] at h4
  obtain ⟨hs, hv⟩ : a.Same a' := h4
  obtain ⟨plan, hplan, b, hb, hbs, hbv⟩ :=
    collapse_data g hg ax hax w hw mode n q.nPix a (hg.data a ha)
  obtain ⟨plan', hplan', b', hb', hbs', hbv'⟩ :=
    collapse_data g hg ax hax w hw mode n q.nPix a' (by rw [← hs]; exact hg.data a ha)
  have : plan' = plan := by
    have := hplan a rfl
    rw [hplan' a hs] at this
    exact Except.ok.inj this
  subst this
  refine ⟨{ g.dropAxes [ax] with grid := some b }, { takeAxes h (g.dropAxes [ax]) with grid := some b' },
    ?_, ?_, ⟨?_, ?_⟩, ?_⟩
  · unfold Grid.collapse
    rw [ha]
    simp only [hplan a rfl, hb]
  · unfold Grid.collapseNew
    rw [ha]
    simp only [hplan a rfl, h1, ha', Option.getD_some, hb']
  · rw [hbs, hbs']
  · intro i hi
    rw [hbs] at hi
    obtain ⟨c, p, rfl, hc, hp⟩ := valid_split hi
    have e1 := hbv c p hc hp
    have e2 := hbv' c p hc hp
    unfold cell at e1 e2
    rw [e1, e2]
    congr 1
    unfold alongAxis
    congr 1
    apply List.map_congr_left
    intro j hj
    have hij : Valid a.shape (c.insertIdx ax j ++ [p]) := by
      rw [hg.data a ha]
      exact valid_concat.2 ⟨valid_insert ax n j q.nPix (List.mem_range.1 hj) hc, hp⟩
    simp only [hv _ hij]
  · have e1 := h2.nProps
    have e2 := h2.spaces.2
    simp only [List.length_range] at e1
    cases g; cases h
    simp only [takeAxes, Grid.dropAxes] at *
    subst e1 e2 h3 h5
    rfl

/-! ## C62 -/

/-- **`down_sample` always fails on a map with data**, whatever the axes and the factors. -/
theorem C62_with_data_fails (g : Grid K V) (ax factor : List ℕ) (modeOk : Bool) (a : Arr V)
    (ha : g.grid = some a) (hne : ax ≠ []) :
    ∃ e, (g.downSample ax factor modeOk).2 = .error e := by
  have key : ∀ (fs : List ℕ) (fl : Bool), ∃ e, (downLoop g fs fl ax).2 = .error e := by
    intro fs fl
    cases ax with
    | nil => exact absurd rfl hne
    | cons i l =>
      unfold downLoop
      cases fs[i]? with
      | none => exact ⟨_, rfl⟩
      | some f =>
        simp only [ha, Option.isSome_some, if_true]
        split_ifs
        · exact ⟨_, rfl⟩
        · exact ⟨_, rfl⟩
  unfold Grid.downSample
  split_ifs
  · exact ⟨_, rfl⟩
  · exact ⟨_, rfl⟩
  · exact ⟨_, rfl⟩
  · exact ⟨_, rfl⟩
  · exact key _ _
  · exact key _ _

/-- **A single factor always fails**, also without data. -/
theorem C62_one_factor_fails (g : Grid K V) (ax : List ℕ) (f : ℕ) (modeOk : Bool) (hne : ax ≠ []) :
    ∃ e, (g.downSample ax [f] modeOk).2 = .error e := by
  have key : ∀ fs : List ℕ, ∃ e, (downLoop g fs true ax).2 = .error e := by
    intro fs
    cases ax with
    | nil => exact absurd rfl hne
    | cons i l =>
      unfold downLoop
      cases fs[i]? with
      | none => exact ⟨_, rfl⟩
      | some f =>
        simp only [if_true]
        split_ifs
        · exact ⟨_, rfl⟩
        · exact ⟨_, rfl⟩
        · exact ⟨_, rfl⟩
  unfold Grid.downSample
  split_ifs with h1 h2 h3 h4 h5
  · exact ⟨_, rfl⟩
  · exact ⟨_, rfl⟩
  · exact ⟨_, rfl⟩
  · exact ⟨_, rfl⟩
  · exact key _
  · exact absurd rfl h5

theorem downAxis_counts (g g' : Grid K V) (ax f : ℕ) (h : downAxis g ax f = .ok g') :
    g'.nPix = g.nPix.set ax (g.nPix.getD ax 0 / f) ∧
    ∀ i, (g'.centers.getD i []).length = (g.centers.getD i []).length := by
  unfold downAxis at h
  simp only at h
  split at h
  · split at h
    · cases h
    · simp only [Except.ok.injEq] at h
      subst h
      refine ⟨rfl, ?_⟩
      intro i
      simp only
      by_cases hi : i = ax
      · subst hi
        by_cases hl : i < g.centers.length
        · rw [List.getD_eq_getElem?_getD, List.getElem?_set_self hl]
          simp
        · have e : g.centers.getD i [] = [] := by
            rw [List.getD_eq_getElem?_getD, List.getElem?_eq_none (Nat.le_of_not_lt hl)]; rfl
          rw [e, List.getD_eq_getElem?_getD, List.getElem?_eq_none (by simpa using hl)]
          rfl
      · rw [List.getD_eq_getElem?_getD, List.getElem?_set_ne (Ne.symm hi),
          ← List.getD_eq_getElem?_getD]
  · cases h

theorem downLoop_counts (g g' : Grid K V) (factor : List ℕ) (fl : Bool) (ax : List ℕ)
    (h : downLoop g factor fl ax = (g', .ok ())) :
    (∀ i, (g'.centers.getD i []).length = (g.centers.getD i []).length) ∧
    (∀ i, g'.nPix.getD i 0 ≤ g.nPix.getD i 0) ∧
    ∀ i ∈ ax, ∀ f, factor[i]? = some f → 2 ≤ f → g'.nPix.getD i 0 < g.nPix.getD i 0 := by
  induction ax generalizing g with
  | nil =>
    have : g = g' := (Prod.mk.injEq .. ▸ h).1
    subst this
    exact ⟨fun _ => rfl, fun _ => le_refl _, by simp⟩
  | cons k l ih =>
    unfold downLoop at h
    rcases hk : factor[k]? with _ | f
    · rw [hk] at h; simp at h
    rw [hk] at h
    simp only at h
    by_cases h0 : g.nPix.getD k 0 / f = 0
    · rw [if_pos h0] at h; simp at h
    rw [if_neg h0] at h
    split_ifs at h
    · simp at h
    · simp at h
    rcases hd : downAxis g k f with e | g1
    · rw [hd] at h; simp at h
    rw [hd] at h
    simp only at h
    obtain ⟨d1, d2⟩ := downAxis_counts g g1 k f hd
    obtain ⟨i1, i2, i3⟩ := ih g1 h
    have hlt : k < g.nPix.length := by
      by_contra hc
      rw [List.getD_eq_getElem?_getD, List.getElem?_eq_none (Nat.le_of_not_lt hc)] at h0
      simp at h0
    have hself : g1.nPix.getD k 0 = g.nPix.getD k 0 / f := by
      rw [d1, List.getD_eq_getElem?_getD, List.getElem?_set_self hlt]; rfl
    have hother : ∀ i, i ≠ k → g1.nPix.getD i 0 = g.nPix.getD i 0 := by
      intro i hi
      rw [d1, List.getD_eq_getElem?_getD, List.getElem?_set_ne (Ne.symm hi),
        ← List.getD_eq_getElem?_getD]
    have hle : ∀ i, g1.nPix.getD i 0 ≤ g.nPix.getD i 0 := by
      intro i
      by_cases hi : i = k
      · subst hi; rw [hself]; exact Nat.div_le_self _ _
      · rw [hother i hi]
    refine ⟨fun i => (i1 i).trans (d2 i), fun i => (i2 i).trans (hle i), ?_⟩
    intro i hi f' hf' h2
    rcases List.mem_cons.1 hi with rfl | hi
    · rw [hk] at hf'
      have := Option.some.inj hf'
      subst this
      refine lt_of_le_of_lt (i2 i) ?_
      rw [hself]
      exact Nat.div_lt_self (by
        rcases Nat.eq_zero_or_pos (g.nPix.getD i 0) with e | e
        · rw [e] at h0; simp at h0
        · exact e) h2
    · exact lt_of_lt_of_le (i3 i hi f' hf' h2) (hle i)

/-- **Without data the description becomes wrong**: whenever the call succeeds and combines two or more
cells along some axis, the result is not the description of a grid (the list of cell centres
is longer than the number of cells). -/
theorem C62_without_data_wrong (g g' : Grid K V) (hg : Regular g) (ax factor : List ℕ)
    (modeOk : Bool) (h : g.downSample ax factor modeOk = (g', .ok ())) (i f : ℕ) (hi : i ∈ ax)
    (hf : factor[i]? = some f) (h2 : 2 ≤ f) : ¬ Regular g' := by
  have hne : ax ≠ [] := by rintro rfl; simp at hi
  have hl1 : factor.length ≠ 1 := by
    intro hl
    obtain ⟨x, rfl⟩ := List.length_eq_one_iff.1 hl
    obtain ⟨e, he⟩ := C62_one_factor_fails g ax x modeOk hne
    rw [h] at he
    cases he
  unfold Grid.downSample at h
  by_cases c1 : ∃ i ∈ ax, g.dim ≤ i
  · rw [if_pos c1] at h; simp at h
  rw [if_neg c1] at h
  split_ifs at h
  · simp at h
  · simp at h
  · simp at h
  obtain ⟨d1, d2, d3⟩ := downLoop_counts g g' factor false ax h
  intro hr
  have hid : i < g.dim := by
    by_contra hc
    exact c1 ⟨i, hi, by omega⟩
  have hlt := d3 i hi f hf h2
  have count : ∀ k : Grid K V, Regular k → i < k.dim →
      (k.centers.getD i []).length = k.nPix.getD i 0 := by
    intro k hk hik
    obtain ⟨n, w, c, -, -, q⟩ := hk.axis i hik
    rw [getD_of_some q.centers, getD_of_some q.nPix]
    simp [middles]
  have e1 := count g hg hid
  by_cases hik : i < g'.dim
  · have e2 := count g' hr hik
    have := d1 i
    omega
  · have e2 : g'.centers.getD i [] = [] := by
      rw [List.getD_eq_getElem?_getD, List.getElem?_eq_none (by rw [hr.centers]; omega)]; rfl
    have := d1 i
    rw [e2] at this
    have : (g.centers.getD i []).length = 0 := this.symm
    omega

end

/-- The full statement of C62, as far as the shape of the result: for a map with data, factors
dividing the number of cells give a map with that many fewer cells. -/
def C62_full : Prop :=
  ∀ (g : Grid ℝ ℂ) (ax factor : List ℕ) (a : Arr ℂ), Regular g → g.grid = some a →
    g.fourier = List.replicate g.dim false → ax.length = factor.length → ax.Nodup →
    (∀ i ∈ ax, i < g.dim) →
    (∀ (k i f : ℕ), ax[k]? = some i → factor[k]? = some f → 1 ≤ f ∧ f ∣ g.nPix.getD i 0) →
    ∃ g', g.downSample ax factor true = (g', .ok ()) ∧ Regular g' ∧
      ∀ (k i f : ℕ), ax[k]? = some i → factor[k]? = some f → g'.nPix.getD i 0 = g.nPix.getD i 0 / f

theorem C62_full_false : ¬ C62_full := by
  intro h
  obtain ⟨g, hr, hl, hn, hu, hg, hd, hpx, hf, hp⟩ := new_square 1 (zeros [10, 10, 1]) rfl
  obtain ⟨g', h1, -⟩ := h g [0, 1] [2, 5] _ hr hg (by rw [hf, hd]; rfl) rfl (by simp) (by simp [hd])
    (by
      intro k i f h1 h2
      rw [hpx]
      match k with
      | 0 => simp at h1 h2; subst h1 h2; simp
      | 1 => simp at h1 h2; subst h1 h2; simp
      | k + 2 => simp at h1)
  obtain ⟨e, he⟩ := C62_with_data_fails g [0, 1] [2, 5] true _ hg (by simp)
  rw [h1] at he
  cases he

/-! ## The hypotheses are met -/

/-- C25: a map with values `10 x + y`, three by four cells. -/
def table34 : Arr ℚ := ⟨[3, 4, 1], fun i => 10 * (i.getD 0 0 : ℕ) + (i.getD 1 0 : ℕ)⟩

example : okAnd (Grid.new 1 ⟨false, [0, 0]⟩ ⟨false, [3, 4]⟩ ⟨false, [1, 1]⟩)
    (fun g : Grid ℚ ℚ =>
      g.nPix = [3, 4] ∧
      (({ g with grid := some table34 } : Grid ℚ ℚ).collapse [0] none (some .sum)).1.nPix = [4] ∧
      ((({ g with grid := some table34 } : Grid ℚ ℚ).collapse [0] none (some .sum)).1.grid.map
        (fun a => (a.shape, a.get [2, 0]))) = some ([4, 1], 36) ∧
      ((({ g with grid := some table34 } : Grid ℚ ℚ).collapse [1]
        (some [⟨[4], fun i => (i.getD 0 0 : ℕ)⟩]) (some .average)).1.grid.map
        (fun a => (a.shape, a.get [1, 0]))) = some ([3, 1], 37 / 3) ∧
      ((({ g with grid := some table34 } : Grid ℚ ℚ).collapse [1]
        (some [⟨[3, 4], fun i => (i.getD 0 0 : ℕ) + 1⟩]) (some .average)).1.grid.map
        (fun a => (a.shape, a.get [1, 0]))) = some ([3, 1], 23 / 2)) = true := by
  decide +kernel

/-- C25, failures: the calls with several axes, and with weights for every property, do succeed, with data
of the wrong shape. -/
example : okAnd (Grid.new 1 ⟨false, [0, 0]⟩ ⟨false, [3, 4]⟩ ⟨false, [1, 1]⟩)
    (fun g : Grid ℚ ℚ =>
      (({ g with grid := some table34 } : Grid ℚ ℚ).collapse [1, 0] none (some .sum)).1.nPix = [] ∧
      ((({ g with grid := some table34 } : Grid ℚ ℚ).collapse [1, 0] none (some .sum)).1.grid.map
        (fun a => (a.shape, a.get [1, 0]))) = some ([3, 1], 138) ∧
      ((({ g with grid := some table34 } : Grid ℚ ℚ).collapse [1, 0] none (some .sum)).2.toOption).isSome ∧
      ((({ g with grid := some ⟨[3, 3, 3], table34.get⟩ } : Grid ℚ ℚ).collapse [0]
        (some [⟨[3, 3, 3], fun _ => 1⟩]) (some .sum)).2.toOption).isSome) = true := by
  decide +kernel

/-- C62, failures: down-sampling a description without data does succeed. -/
example : okAnd (Grid.new 1 ⟨false, [0, 0]⟩ ⟨false, [6, 4]⟩ ⟨false, [1, 1]⟩)
    (fun g : Grid ℚ ℚ =>
      ((g.downSample [0, 1] [3, 2] true).2.toOption).isSome ∧
      (g.downSample [0, 1] [3, 2] true).1.nPix = [2, 2] ∧
      (g.downSample [0, 1] [3, 2] true).1.centers.map List.length = [6, 4]) = true := by
  decide +kernel

end Verif.Map
