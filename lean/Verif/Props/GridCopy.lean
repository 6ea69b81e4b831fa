import Verif.Lemmas.GridCopy

/-!
# C28, C56, C57: copies, sums, saved files
-/

set_option linter.unusedSectionVars false

namespace Verif.Map

open Verif.Sim (Err)
open Spec

variable {K V : Type} [Field K] [LinearOrder K] [IsStrictOrderedRing K] [FloorRing K]

/-! ## C28 -/

/-- `h` is a grid with the same axes as `g`, in the same space, whose property number `k` is property
number `ps[k]` of `g`. -/
structure CopyOf (g h : Grid K V) (ps : List ℕ) : Prop where
  regular : Regular h
  axes : SameAxes g h
  nProps : h.nProps = ps.length
  spaces : h.fourier = g.fourier ∧ h.isPow = g.isPow
  none : g.grid = none → h.grid = none
  values : ∀ a, g.grid = some a → h.nObj = g.nObj ∧ ∃ b, h.grid = some b ∧
    b.shape = g.nPix ++ [ps.length] ∧
    ∀ (c : List ℕ) (k p : ℕ), Valid g.nPix c → ps[k]? = some p → cell b c k = cell a c p

/-- `h` is a grid with the same axes as `g`, in the same space, with one property: the sum of the
properties `ps` of `g`. -/
structure SumOf [AddCommMonoid V] (g h : Grid K V) (ps : List ℕ) : Prop where
  regular : Regular h
  axes : SameAxes g h
  nProps : h.nProps = 1
  spaces : h.fourier = g.fourier ∧ h.isPow = g.isPow
  values : ∀ a, g.grid = some a → ∃ b, h.grid = some b ∧ b.shape = g.nPix ++ [1] ∧
    ∀ c, Valid g.nPix c → cell b c 0 = (ps.map (cell a c)).sum

/-- C28 in full: any selection of properties can be copied, with its units, and summed. -/
def C28_full (K V : Type) [Field K] [LinearOrder K] [FloorRing K] [AddCommMonoid V] : Prop :=
  ∀ (g : Grid K V) (ps : List ℕ), Regular g → Labelled g → g.gridunits.length = g.nProps →
    ps ≠ [] → (∀ p ∈ ps, p < g.nProps) →
    (∃ h, g.copy (some ps) = .ok h ∧ CopyOf g h ps ∧
      h.gridunits = ps.map (fun p => g.gridunits.getD p none)) ∧
    (g.grid.isSome → ∃ h, g.sumNew (some ps) = .ok h ∧ SumOf g h ps)

theorem checkProps_ok (g : Grid K V) (ps : List ℕ) (h : ∀ p ∈ ps, p < g.nProps) :
    g.checkProps (some ps) = .ok ps := by
  unfold Grid.checkProps; exact if_pos h

theorem Spec.Regular.shape {g : Grid K V} (hg : Regular g) {a : Arr V} (ha : g.grid = some a) :
    a.shape.dropLast = g.nPix := by
  rw [hg.data a ha]; simp

/-- What is proved: a selection of as many properties as there are units (or any selection, if there
is only one unit) is copied with its values, axes and space. -/
theorem C28_copy_partial (g : Grid K V) (ps : List ℕ) (hg : Regular g) (hl : Labelled g)
    (hp : ∀ p ∈ ps, p < g.nProps)
    (hu : g.gridunits.length = 1 ∨ g.gridunits.length = ps.length) :
    ∃ h, g.copy (some ps) = .ok h ∧ CopyOf g h ps ∧
      (g.gridunits.length = ps.length → h.gridunits = g.gridunits) := by
  obtain ⟨h, b1, b2, b3, b4, b5, b6, b7, b8, b9, b10, b11⟩ :=
    rebuild g hg hl ps.length g.gridunits hu
  refine ⟨{ h with grid := g.grid.map (fun a : Arr V => a.selectLast ps),
                   nObj := if g.grid.isSome then g.nObj else h.nObj,
                   fourier := g.fourier, isPow := g.isPow }, ?_, ?_, b8⟩
  · unfold Grid.copy
    rw [checkProps_ok g ps hp]
    simp only [Grid.copyAxes, b1]
  · have hd : h.dim = g.dim := by simp [Grid.dim, b3.center]
    refine ⟨⟨b2.nPix, b2.pix, b2.side, b2.axes, b2.centers, b2.fcenters, b2.faxes,
      hg.fourier.trans hd.symm, ?_, ?_⟩, ?_, b4, ⟨rfl, rfl⟩, ?_, ?_⟩
    · intro i hi
      obtain ⟨n, w, c, h1, h2, q⟩ := b2.axis i hi
      exact ⟨n, w, c, h1, h2, ⟨q.nPix, q.pix, q.center, q.side, q.axes, q.centers, q.fcenters,
        q.faxes⟩⟩
    · intro a ha
      simp only [Option.map_eq_some_iff] at ha
      obtain ⟨a0, h0, rfl⟩ := ha
      simp only [Arr.selectLast, hg.shape h0, b3.nPix, b4]
    · exact ⟨b3.center, b3.side, b3.pix, b3.nPix, b3.axunits, b3.faxunits, b3.axes, b3.centers,
        b3.faxes, b3.fcenters⟩
    · intro hn; simp [hn]
    · intro a ha
      refine ⟨by simp [ha], a.selectLast ps, by simp [ha], ?_, ?_⟩
      · simp only [Arr.selectLast, hg.shape ha]
      · intro c k p _ hk
        simp [cell, Arr.selectLast, hk]

/-- A copy of the whole grid is the same grid (`copy()` selects all properties). -/
theorem C28_copy_all (g : Grid K V) (hg : Regular g) (hl : Labelled g)
    (hu : g.gridunits.length = g.nProps) :
    ∃ h, g.copy none = .ok h ∧ CopyOf g h (List.range g.nProps) ∧ h.gridunits = g.gridunits ∧
      SameData g.grid h.grid := by
  obtain ⟨h, h1, h2, h3⟩ := C28_copy_partial g (List.range g.nProps) hg hl (by simp)
    (.inr (by simpa using hu))
  refine ⟨h, ?_, h2, h3 (by simpa using hu), ?_⟩
  · rw [← h1]
    unfold Grid.copy
    rw [checkProps_ok g (List.range g.nProps) (by simp)]
    rfl
  · rcases ha : g.grid with _ | a
    · rw [h2.none ha]; trivial
    · obtain ⟨-, b, hb, hs, hv⟩ := h2.values a ha
      rw [hb]
      refine ⟨by rw [hs, hg.data a ha]; simp, ?_⟩
      intro i hi
      rw [hg.data a ha] at hi
      obtain ⟨c, p, rfl, hc, hp⟩ := valid_split hi
      exact (hv c p p hc (by simp [hp])).symm

/-- The sum in a new grid is right if the grid has one unit and is in real space. -/
theorem C28_sum_partial [AddCommMonoid V] (g : Grid K V) (ps : List ℕ) (hg : Regular g)
    (hl : Labelled g) (hp : ∀ p ∈ ps, p < g.nProps) (hu : g.gridunits.length = 1)
    (hs : g.fourier = List.replicate g.dim false) (hw : g.isPow = false) (ha : g.grid.isSome) :
    ∃ h, g.sumNew (some ps) = .ok h ∧ SumOf g h ps := by
  obtain ⟨a, ha⟩ := Option.isSome_iff_exists.1 ha
  obtain ⟨h, b1, b2, b3, b4, b5, b6, b7, b8, b9, b10, b11⟩ :=
    rebuild g hg hl 1 g.gridunits (.inl hu)
  refine ⟨{ h.init with grid := some (sumLast a ps) }, ?_, ?_⟩
  · unfold Grid.sumNew
    rw [ha]
    simp only [checkProps_ok g ps hp, Grid.copyAxes, b1]
  · refine ⟨⟨b2.nPix, b2.pix, b2.side, b2.axes, b2.centers, b2.fcenters, b2.faxes, b2.fourier,
      ?_, ?_⟩, ?_, b4, ⟨b9.trans hs.symm, b10.trans hw.symm⟩, ?_⟩
    · intro i hi
      obtain ⟨n, w, c, h1, h2, q⟩ := b2.axis i hi
      exact ⟨n, w, c, h1, h2, ⟨q.nPix, q.pix, q.center, q.side, q.axes, q.centers, q.fcenters,
        q.faxes⟩⟩
    · intro x hx
      simp only [Option.some.injEq] at hx
      subst hx
      simp only [Grid.init, sumLast, hg.shape ha, b3.nPix, b4]
    · exact ⟨b3.center, b3.side, b3.pix, b3.nPix, b3.axunits, b3.faxunits, b3.axes, b3.centers,
        b3.faxes, b3.fcenters⟩
    · intro a' ha'
      rw [ha] at ha'
      simp only [Option.some.injEq] at ha'
      subst ha'
      refine ⟨sumLast a ps, rfl, by simp only [sumLast, hg.shape ha], ?_⟩
      intro c _
      simp [cell, sumLast]
      rfl

/-- `sum_properties(in_place=True)` keeps all properties and adds their sum as the last one. -/
theorem C28_sum_in_place [AddCommMonoid V] (g : Grid K V) (ps : List ℕ) (hg : Regular g)
    (hp : ∀ p ∈ ps, p < g.nProps) (a : Arr V) (ha : g.grid = some a) :
    ∃ g' b, g.sumInPlace (some ps) = (g', .ok ()) ∧ Regular g' ∧ g'.nProps = g.nProps + 1 ∧
      g'.grid = some b ∧
      { g' with grid := none, nProps := g.nProps } = ({ g with grid := none } : Grid K V) ∧
      (∀ c p, Valid g.nPix c → p < g.nProps → cell b c p = cell a c p) ∧
      (∀ c, Valid g.nPix c → cell b c g.nProps = (ps.map (cell a c)).sum) := by
  have hsh := hg.data a ha
  have hv : newPropValue g (sumLast a ps) = .ok (sumLast a ps) := by
    unfold newPropValue
    have h1 : (sumLast a ps).shape = g.nPix ++ [1] := by simp only [sumLast, hg.shape ha]
    rw [h1, if_pos (by simp [hg.nPix]), if_pos (by simp)]
  have hl1 : (sumLast a ps).shape.getLastD 0 = 1 := by simp [sumLast]
  have hl2 : a.shape.getLastD 0 = g.nProps := by simp [hsh]
  refine ⟨{ g with grid := some (a.concatLast (sumLast a ps)), nProps := g.nProps + 1 },
    a.concatLast (sumLast a ps), ?_, ?_, rfl, rfl, ?_, ?_, ?_⟩
  · unfold Grid.sumInPlace
    rw [ha]
    simp only [checkProps_ok g ps hp, Grid.addNewProp, ha, hv, hl1]
  · refine ⟨hg.nPix, hg.pix, hg.side, hg.axes, hg.centers, hg.fcenters, hg.faxes, hg.fourier,
      ?_, ?_⟩
    · intro i hi
      obtain ⟨n, w, c, h1, h2, q⟩ := hg.axis i hi
      exact ⟨n, w, c, h1, h2, ⟨q.nPix, q.pix, q.center, q.side, q.axes, q.centers, q.fcenters,
        q.faxes⟩⟩
    · intro x hx
      simp only [Option.some.injEq] at hx
      subst hx
      simp only [Arr.concatLast, hg.shape ha, hl1, hl2]
  · rfl
  · intro c p _ hp
    show (if (c ++ [p]).getLastD 0 < a.shape.getLastD 0 then _ else _) = _
    rw [if_pos (by rw [hl2]; simpa using hp)]
    rfl
  · intro c _
    show (if (c ++ [g.nProps]).getLastD 0 < a.shape.getLastD 0 then _ else _) = _
    rw [if_neg (by rw [hl2]; simp)]
    simp [sumLast]
    rfl

/-- Where it fails, for every grid: with two or more units no other number of properties can be
copied … -/
theorem C28_selection_fails (g : Grid K V) (ps : List ℕ) (hg : Regular g) (hl : Labelled g)
    (h1 : g.gridunits.length ≠ 1) (h2 : g.gridunits.length ≠ ps.length)
    (hp : ∀ p ∈ ps, p < g.nProps) : g.copy (some ps) = .error .valueError := by
  have hau : spreadUnits (some g.axunits) g.center.vals.length = .ok g.axunits := by
    have : g.center.vals.length = g.axunits.length := hl.1.symm
    rw [this]; exact spreadUnits_full _
  obtain ⟨S, hS, -⟩ := spreadSide_full g.side g.center.vals.length hg.side
  have hP : spreadPix g.pix g.center.vals.length = .ok g.pix := by
    unfold spreadPix; exact if_pos hg.pix
  unfold Grid.copy
  rw [checkProps_ok g ps hp]
  simp only [Grid.copyAxes, Grid.new, hS, hP, hau, spreadUnits_error _ _ h1 h2]

/-- … nor can a sum be made in a new grid … -/
theorem C28_sum_fails [AddCommMonoid V] (g : Grid K V) (ps : List ℕ) (hg : Regular g)
    (hl : Labelled g) (h1 : g.gridunits.length ≠ 1) (hp : ∀ p ∈ ps, p < g.nProps) :
    g.sumNew (some ps) = .error .valueError := by
  have hau : spreadUnits (some g.axunits) g.center.vals.length = .ok g.axunits := by
    have : g.center.vals.length = g.axunits.length := hl.1.symm
    rw [this]; exact spreadUnits_full _
  obtain ⟨S, hS, -⟩ := spreadSide_full g.side g.center.vals.length hg.side
  have hP : spreadPix g.pix g.center.vals.length = .ok g.pix := by
    unfold spreadPix; exact if_pos hg.pix
  unfold Grid.sumNew
  rcases g.grid with _ | a
  · rfl
  · simp only [checkProps_ok g ps hp, Grid.copyAxes, Grid.new, hS, hP, hau,
      spreadUnits_error _ _ h1 h1]

/-- … nor can the grid be copied at all after a property has been added. -/
theorem C28_copy_after_add_fails [AddCommMonoid V] (g : Grid K V) (hg : Regular g)
    (hl : Labelled g) (hu : g.gridunits.length = g.nProps) (h2 : 2 ≤ g.nProps) (a : Arr V)
    (ha : g.grid = some a) (ps : List ℕ) (hp : ∀ p ∈ ps, p < g.nProps) :
    (g.sumInPlace (some ps)).1.copy none = .error .valueError := by
  obtain ⟨g', b, h1, hr, hn, hb, he, -, -⟩ := C28_sum_in_place g ps hg hp a ha
  rw [h1]
  have e1 : g'.gridunits = g.gridunits := by
    have := congrArg Grid.gridunits he; exact this
  have e2 : g'.axunits = g.axunits := by
    have := congrArg Grid.axunits he; exact this
  have e3 : g'.faxunits = g.faxunits := by
    have := congrArg Grid.faxunits he; exact this
  have e4 : g'.center = g.center := by
    have := congrArg Grid.center he; exact this
  have hl' : Labelled g' := ⟨by rw [e2, hl.1]; simp [Grid.dim, e4], by rw [e2, e3, hl.2]⟩
  have := C28_selection_fails g' (List.range g'.nProps) hr hl' (by rw [e1]; omega)
    (by rw [e1, List.length_range]; omega) (by simp)
  rw [← this]
  show g'.copy none = _
  unfold Grid.copy
  rw [checkProps_ok g' (List.range g'.nProps) (by simp)]
  rfl

/-- The new grid of a sum always claims to be in real space, whatever space the summed values are in. -/
theorem C28_sum_forgets_space [AddCommMonoid V] (g h : Grid K V) (ps : Option (List ℕ))
    (hg : Regular g) (hl : Labelled g) (h1 : g.sumNew ps = .ok h) :
    true ∉ h.fourier := by
  unfold Grid.sumNew at h1
  rcases ha : g.grid with _ | a
  · simp [ha] at h1
  · rw [ha] at h1
    simp only at h1
    rcases hc : g.checkProps ps with e | ps'
    · simp [hc] at h1
    · rw [hc] at h1
      simp only at h1
      rcases hx : g.copyAxes 1 with e | x
      · simp [hx] at h1
      · rw [hx] at h1
        simp only [Except.ok.injEq] at h1
        subst h1
        by_cases hu : g.gridunits.length = 1
        · obtain ⟨y, b1, -, -, -, -, -, -, -, b9, -⟩ := rebuild g hg hl 1 g.gridunits (.inl hu)
          have : x = y := by
            unfold Grid.copyAxes at hx
            rw [b1] at hx
            exact (Except.ok.inj hx).symm
          subst this
          simp [Grid.init, b9]
        · have := C28_sum_fails g [] hg hl hu (by simp)
          unfold Grid.sumNew at this
          rw [ha] at this
          simp [checkProps_ok g [] (by simp), hx] at this

/-- Reordered properties keep the units of the old order. -/
theorem C28_units_not_reordered (g : Grid K V) (hg : Regular g) (hl : Labelled g)
    (hu : g.gridunits.length = 2) (h2 : g.nProps = 2) :
    ∃ h, g.copy (some [1, 0]) = .ok h ∧ CopyOf g h [1, 0] ∧ h.gridunits = g.gridunits := by
  obtain ⟨h, h1, h2, h3⟩ := C28_copy_partial g [1, 0] hg hl (by simp [h2])
    (.inr (by simpa using hu))
  exact ⟨h, h1, h2, h3 (by simpa using hu)⟩

theorem new_two (m : ℕ) (gu : List (Option String)) (h : gu.length = m) :
    ∃ g : Grid K V, Grid.new m ⟨false, [0]⟩ ⟨false, [10]⟩ ⟨false, [1]⟩ none (some gu) = .ok g ∧
      Regular g ∧ Floats g ∧ Labelled g ∧ g.nProps = m ∧ g.gridunits = gu ∧ g.grid = none ∧
      g.dim = 1 ∧ g.nPix = [10] ∧ g.fourier = [false] := by
  subst h
  obtain ⟨g, b1, b2, b3, b4, b5, b6, b7, b8, b9, b10, b11, b12, b13, b14⟩ :=
    new_ok (V := V) gu.length (⟨false, [0]⟩ : NArr K) ⟨false, [10]⟩ ⟨false, [1]⟩ ⟨false, [10]⟩
      ⟨false, [1]⟩ none (some gu) [none] gu rfl rfl rfl (spreadUnits_full gu) (by simp) [10] (by
        have h : pixelCount (10 : K) 1 = .ok 10 := by
          rw [pixelCount_ok _ _ one_pos]
          norm_num
        simp [mapE, h])
  have hd : g.dim = 1 := by simp [Grid.dim, b3]
  refine ⟨g, b1, b2, ?_, ?_, b6, b11, b8, hd, b5, by simpa using b12⟩
  · refine ⟨by rw [b3], ?_, by rw [b4]⟩
    rw [b14]; split <;> rfl
  · exact ⟨by rw [b9, hd]; rfl, by rw [b9, b10]⟩

theorem C28_full_false [AddCommMonoid V] : ¬ C28_full K V := by
  intro h
  obtain ⟨g, -, hr, -, hl, hn, hu, -⟩ := new_two (K := K) (V := V) 2 [some "K", some "Jy"] rfl
  obtain ⟨⟨x, hx, -⟩, -⟩ := h g [0] hr hl (by simp [hu, hn]) (by simp) (by simp [hn])
  rw [C28_selection_fails g [0] hr hl (by simp [hu]) (by simp [hu]) (by simp [hn])] at hx
  cases hx

/-- A case of the hypotheses: two properties, data, both copied in the other order. -/
example : okAnd (Grid.new 2 ⟨false, [5, 5]⟩ ⟨false, [10, 10]⟩ ⟨false, [1, 1]⟩ none
      (some [some "K", some "Jy"]))
    (fun g : Grid ℚ ℚ =>
      let g := { g with grid := some ⟨[10, 10, 2], fun i => (i.getD 0 0 : ℚ) + 100 * i.getD 2 0⟩ }
      okAnd (g.copy (some [1, 0])) (fun h : Grid ℚ ℚ =>
        h.grid.map (fun a : Arr ℚ => (cell a [3, 4] 0, cell a [3, 4] 1)) = some (103, 3) ∧
        h.gridunits = [some "K", some "Jy"]) = true ∧
      ((g.sumInPlace (some [0, 1])).1.grid.map (fun a : Arr ℚ => cell a [3, 4] 2)) =
        some 106) = true := by
  decide +kernel

/-! ## C56 -/

/-- `h` is what was saved: the same grid, axes, units, space and values. -/
structure Reloaded (g h : Grid K V) : Prop where
  regular : Regular h
  axes : SameAxes g h
  nProps : h.nProps = g.nProps
  gridunits : h.gridunits = g.gridunits
  spaces : h.fourier = g.fourier ∧ h.isPow = g.isPow
  grid : h.grid = g.grid
  nObj : g.grid.isSome → h.nObj = g.nObj

/-- C56 in full: whatever is saved can be loaded again from the path it was saved to. -/
def C56_full (K V : Type) [Field K] [LinearOrder K] [FloorRing K] : Prop :=
  ∀ (g : Grid K V) (path : String) (fs : Files K V) (ow : Bool), Regular g → Labelled g →
    (g.save path ow fs).2 = .ok () →
    ∃ h, load (g.save path ow fs).1 path = .ok h ∧ Reloaded g h

/-- What is proved: a grid with a unit for each property, saved under a name ending in `.npz`. -/
theorem C56_roundtrip_partial (g : Grid K V) (path : String) (fs : Files K V) (ow : Bool)
    (hg : Regular g) (hl : Labelled g) (hu : g.gridunits.length = g.nProps)
    (hpath : path.endsWith ".npz") (hs : (g.save path ow fs).2 = .ok ()) :
    ∃ h, load (g.save path ow fs).1 path = .ok h ∧ Reloaded g h := by
  obtain ⟨h, b1, b2, b3, b4, b5, b6, b7, b8, b9, b10, b11⟩ :=
    rebuild g hg hl g.nProps g.gridunits (.inr hu)
  have hf : (g.save path ow fs).1 = fs.set path g.toSaved := by
    unfold Grid.save at hs ⊢
    by_cases hc : (fs.has path && !ow) = true
    · rw [if_pos hc] at hs; cases hs
    · rw [if_neg hc]; simp [npzPath, hpath]
  refine ⟨{ h with grid := g.grid, nObj := if g.grid.isSome then g.nObj else h.nObj,
                   fourier := g.fourier, isPow := g.isPow }, ?_, ?_⟩
  · unfold load
    rw [hf, PyDict.get?_set, if_pos rfl]
    simp only [Grid.toSaved, b1]
    rfl
  · have hd : h.dim = g.dim := by simp [Grid.dim, b3.center]
    refine ⟨⟨b2.nPix, b2.pix, b2.side, b2.axes, b2.centers, b2.fcenters, b2.faxes,
      hg.fourier.trans hd.symm, ?_, ?_⟩, ?_, b4, b8 hu, ⟨rfl, rfl⟩, rfl, ?_⟩
    · intro i hi
      obtain ⟨n, w, c, h1, h2, q⟩ := b2.axis i hi
      exact ⟨n, w, c, h1, h2, ⟨q.nPix, q.pix, q.center, q.side, q.axes, q.centers, q.fcenters,
        q.faxes⟩⟩
    · intro a ha
      rw [hg.data a ha]
      simp only [b3.nPix, b4]
    · exact ⟨b3.center, b3.side, b3.pix, b3.nPix, b3.axunits, b3.faxunits, b3.axes, b3.centers,
        b3.faxes, b3.fcenters⟩
    · intro hx; simp [hx]

/-- Where it fails: saved under a name that does not end in `.npz`, the grid is not at the path (if
nothing was there before) … -/
theorem C56_other_name_fails (g : Grid K V) (path : String) (fs : Files K V) (ow : Bool)
    (hpath : ¬ path.endsWith ".npz") (hf : fs.get? path = none) :
    (g.save path ow fs).2 = .ok () ∧
      load (g.save path ow fs).1 path = .error .fileNotFound := by
  have hne : path ≠ path ++ ".npz" := by
    intro e
    have := congrArg String.length e
    rw [String.length_append] at this
    have h4 : ".npz".length = 4 := rfl
    omega
  have hh : fs.has path = false := by
    rw [Bool.eq_false_iff]; intro h
    rw [PyDict.has_iff, PyDict.mem_keys_iff, hf] at h
    simp at h
  have hs : g.save path ow fs = (fs.set (path ++ ".npz") g.toSaved, .ok ()) := by
    unfold Grid.save
    simp [hh, npzPath, hpath]
  rw [hs]
  refine ⟨rfl, ?_⟩
  unfold load
  rw [PyDict.get?_set, if_neg (Ne.symm hne), hf]

/-- … and a grid with two or more properties to which another was added can be saved but never loaded. -/
theorem C56_added_property_fails [AddCommMonoid V] (g : Grid K V) (path : String) (fs : Files K V)
    (hg : Regular g) (hl : Labelled g) (h1 : g.gridunits.length ≠ 1)
    (hu : g.gridunits.length ≠ g.nProps) (hpath : path.endsWith ".npz") :
    (g.save path true fs).2 = .ok () ∧
      load (g.save path true fs).1 path = .error .valueError := by
  have hs : g.save path true fs = (fs.set path g.toSaved, .ok ()) := by
    unfold Grid.save; simp [npzPath, hpath]
  rw [hs]
  refine ⟨rfl, ?_⟩
  have hau : spreadUnits (some g.axunits) g.center.vals.length = .ok g.axunits := by
    have : g.center.vals.length = g.axunits.length := hl.1.symm
    rw [this]; exact spreadUnits_full _
  obtain ⟨S, hS, -⟩ := spreadSide_full g.side g.center.vals.length hg.side
  have hP : spreadPix g.pix g.center.vals.length = .ok g.pix := by
    unfold spreadPix; exact if_pos hg.pix
  unfold load
  rw [PyDict.get?_set, if_pos rfl]
  simp only [Grid.toSaved, Grid.new, hS, hP, hau, spreadUnits_error _ _ h1 hu]

theorem C56_full_false : ¬ C56_full K V := by
  intro h
  obtain ⟨g, -, hr, -, hl, -⟩ := new_two (K := K) (V := V) 1 [none] rfl
  have hp : ¬ ("map" : String).endsWith ".npz" := by decide +kernel
  obtain ⟨h1, h2⟩ := C56_other_name_fails g "map" [] false hp rfl
  obtain ⟨x, hx, -⟩ := h g "map" [] false hr hl h1
  rw [h2] at hx
  cases hx

example : okAnd (Grid.new 1 ⟨false, [5, 5]⟩ ⟨false, [10, 10]⟩ ⟨false, [1, 1]⟩)
    (fun g : Grid ℚ ℚ =>
      let s := g.init.save "map.npz" false []
      okAnd (load s.1 "map.npz") (fun h : Grid ℚ ℚ => h.nPix = [10, 10] ∧ h.grid.isSome) = true)
      = true := by
  decide +kernel

/-! ## C57 -/

/-- C57 in full: without `overwrite`, no existing file is changed. -/
def C57_full (K V : Type) : Prop :=
  ∀ (g : Grid K V) (path : String) (fs : Files K V) (q : String) (s : Saved K V),
    fs.get? q = some s → (g.save path false fs).1.get? q = some s

/-- What is proved: so it is for names ending in `.npz`; a refused call changes nothing. -/
theorem C57_no_overwrite_partial (g : Grid K V) (path : String) (fs : Files K V)
    (hpath : path.endsWith ".npz") (q : String) (s : Saved K V) (h : fs.get? q = some s) :
    (g.save path false fs).1.get? q = some s := by
  unfold Grid.save
  by_cases hc : fs.has path = true
  · simp [hc, h]
  · have hne : q ≠ path := by
      rintro rfl
      apply hc
      rw [PyDict.has_iff, PyDict.mem_keys_iff, h]; rfl
    simp only [hc, npzPath, hpath]
    simp only [Bool.false_and, Bool.false_eq_true, if_false, if_true]
    rw [PyDict.get?_set, if_neg (Ne.symm hne), h]

/-- An existing name is refused. -/
theorem C57_refused (g : Grid K V) (path : String) (fs : Files K V) (h : fs.has path = true) :
    g.save path false fs = (fs, .error .valueError) := by
  unfold Grid.save; simp [h]

/-- Where it fails: with any other name the check looks at the wrong file and the existing
one is replaced. -/
theorem C57_other_name_replaces (g : Grid K V) (path : String) (fs : Files K V)
    (hpath : ¬ path.endsWith ".npz") (hf : fs.get? path = none) :
    (g.save path false fs).2 = .ok () ∧
      (g.save path false fs).1.get? (path ++ ".npz") = some g.toSaved := by
  have hh : fs.has path = false := by
    rw [Bool.eq_false_iff]; intro h
    rw [PyDict.has_iff, PyDict.mem_keys_iff, hf] at h
    simp at h
  unfold Grid.save
  simp [hh, npzPath, hpath]

theorem C57_full_false : ¬ C57_full K V := by
  intro h
  obtain ⟨g, -, -, -, -, hn, -⟩ := new_two (K := K) (V := V) 1 [none] rfl
  obtain ⟨g2, -, -, -, -, hn2, -⟩ := new_two (K := K) (V := V) 2 [none, none] rfl
  have hp : ¬ ("map" : String).endsWith ".npz" := by decide +kernel
  have h1 := h g "map" [("map.npz", g2.toSaved)] "map.npz" g2.toSaved rfl
  have h2 := (C57_other_name_replaces g "map" [("map.npz", g2.toSaved)] hp rfl).2
  have h3 : (g.save "map" false [("map.npz", g2.toSaved)]).1.get? "map.npz" = some g.toSaved := h2
  rw [h3] at h1
  have := congrArg Saved.nProps (Option.some.inj h1)
  simp [Grid.toSaved, hn, hn2] at this

end Verif.Map
