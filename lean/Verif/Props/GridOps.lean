import Verif.Props.GridCopy
import Verif.Props.GridPad
import Verif.Props.GridCrop
import Verif.Props.GridScale

/-!
# C60: any sequence of operations keeps the geometry consistent
-/

set_option linter.unusedSectionVars false

namespace Verif.Map

open Verif.Sim (Err)
open Spec

variable {K V : Type} [Field K] [LinearOrder K] [IsStrictOrderedRing K] [FloorRing K]
  [AddCommMonoid V]

/-- The calls that change a grid (other than adding objects and transforms). -/
inductive GridOp (K V : Type) where
  | init
  | pad (ax : List ℕ) (amounts : List ℤ) (val : V)
  | crop (ax : ℕ) (min max : Option K)
  | scale (ax : List ℕ) (factor : List K) (scaleCenter : Bool)
  | addNewProp (value : Option (Arr V))
  | sum (properties : Option (List ℕ))
  | copy (properties : Option (List ℕ))

/-- One call; `copy` goes on with the copy. -/
def GridOp.run (op : GridOp K V) (g : Grid K V) : Grid K V × Except Err Unit :=
  match op with
  | .init => (g.init, .ok ())
  | .pad ax amounts val => g.padBy ax amounts val
  | .crop ax min max => g.crop ax min max
  | .scale ax factor sc => g.scaleAxis ax factor sc
  | .addNewProp v => g.addNewProp v
  | .sum ps => g.sumInPlace ps
  | .copy ps => match g.copy ps with
    | .ok h => (h, .ok ())
    | .error e => (g, .error e)

/-- Scale factors must be positive; nothing else is asked of the arguments. -/
def GridOp.Sensible : GridOp K V → Prop
  | .scale _ factor _ => ∀ f ∈ factor, 0 < f
  | _ => True

/-- A history of calls, whatever their outcome. -/
def runAll (ops : List (GridOp K V)) (g : Grid K V) : Grid K V :=
  ops.foldl (fun g op => (op.run g).1) g

/-- A history of calls that succeed. -/
inductive Succeeds : Grid K V → List (GridOp K V) → Grid K V → Prop
  | nil (g : Grid K V) : Succeeds g [] g
  | cons (g g' g'' : Grid K V) (op : GridOp K V) (ops : List (GridOp K V)) :
      op.run g = (g', .ok ()) → Succeeds g' ops g'' → Succeeds g (op :: ops) g''

/-- C60 in full: whatever calls are made on a consistent grid, and whether they succeed or not. -/
def C60_full (K V : Type) [Field K] [LinearOrder K] [FloorRing K] [AddCommMonoid V] : Prop :=
  ∀ (g : Grid K V) (ops : List (GridOp K V)), Regular g → (∀ op ∈ ops, op.Sensible) →
    Regular (runAll ops g)

theorem regular_add {g g' : Grid K V} (hg : Regular g) (a : Option (Arr V)) (n m : ℕ)
    (gu : List (Option String)) (b : Bool)
    (ha : ∀ x, a = some x → x.shape = g.nPix ++ [n])
    (h : g' = { g with grid := a, nProps := n, nObj := m, gridunits := gu, isPow := b }) :
    Regular g' := by
  subst h
  refine ⟨hg.nPix, hg.pix, hg.side, hg.axes, hg.centers, hg.fcenters, hg.faxes, hg.fourier, ?_, ha⟩
  intro i hi
  obtain ⟨n, w, c, h1, h2, q⟩ := hg.axis i hi
  exact ⟨n, w, c, h1, h2, ⟨q.nPix, q.pix, q.center, q.side, q.axes, q.centers, q.fcenters,
    q.faxes⟩⟩

theorem addNewProp_regular (g g' : Grid K V) (hg : Regular g) (hfl : Floats g)
    (v : Option (Arr V)) (h : g.addNewProp v = (g', .ok ())) : Regular g' ∧ Floats g' := by
  have main : ∀ (a w : Arr V), g.grid = some a → w.shape.dropLast = g.nPix →
      Regular ({ g with grid := some (a.concatLast w),
                        nProps := g.nProps + w.shape.getLastD 0 } : Grid K V) := by
    intro a w ha hw
    refine regular_add hg (some (a.concatLast w)) (g.nProps + w.shape.getLastD 0) g.nObj
      g.gridunits g.isPow ?_ rfl
    intro x hx
    simp only [Option.some.injEq] at hx
    subst hx
    have : a.shape.getLastD 0 = g.nProps := by simp [hg.data a ha]
    simp only [Arr.concatLast, hg.shape ha, this]
  unfold Grid.addNewProp at h
  rcases ha : g.grid with _ | a
  · rw [ha] at h
    simp only at h
    rcases v with _ | v
    · simp only [Prod.mk.injEq, and_true] at h
      refine ⟨regular_add hg none (g.nProps + 1) g.nObj g.gridunits g.isPow (by simp) ?_, ?_⟩
      · rw [← h, ← ha]
      · rw [← h]; exact hfl
    · simp at h
  · rw [ha] at h
    simp only at h
    rcases v with _ | v
    · simp only [Prod.mk.injEq, and_true] at h
      rw [← h]
      exact ⟨main a (zeros (g.nPix ++ [1])) ha (by simp [zeros]), hfl⟩
    · simp only at h
      rcases hv : newPropValue g v with e | w
      · simp [hv] at h
      · rw [hv] at h
        simp only [Prod.mk.injEq, and_true] at h
        rw [← h]
        refine ⟨main a w ha ?_, hfl⟩
        unfold newPropValue at hv
        by_cases c1 : v.shape.length = g.dim + 1
        · rw [if_pos c1] at hv
          obtain ⟨c2, hv⟩ := ite_ok hv
          subst hv; exact c2
        · rw [if_neg c1] at hv
          by_cases c3 : v.shape.length = g.dim
          · rw [if_pos c3] at hv
            obtain ⟨c2, hv⟩ := ite_ok hv
            subst hv; simpa using c2
          · rw [if_neg c3] at hv; cases hv

theorem scaleLoop_regular (factor : List K) (hpos : ∀ f ∈ factor, 0 < f) (sc : Bool)
    (ax : List ℕ) (g g' : Grid K V) (hg : Regular g) (hfl : Floats g) (hax : ∀ i ∈ ax, i < g.dim)
    (h : scaleLoop factor sc ax g = (g', .ok ())) : Regular g' ∧ Floats g' := by
  induction ax generalizing g with
  | nil => simp only [scaleLoop, Prod.mk.injEq, and_true] at h; subst h; exact ⟨hg, hfl⟩
  | cons i ax ih =>
    simp only [scaleLoop] at h
    rcases hf : factor[i]? with _ | f
    · simp [scaleOne, hf] at h
    · cases sc with
      | false => simp [scaleOne, hf] at h
      | true =>
        obtain ⟨g1, a1, a2, a3, a4, -⟩ := scaleOne_ok g hg hfl factor i
          (hax i (List.mem_cons_self ..)) f hf (hpos f (List.mem_of_getElem? hf))
        rw [a1] at h
        exact ih g1 a2 a3 (fun j hj => by rw [a4]; exact hax j (List.mem_cons_of_mem _ hj)) h

theorem copy_regular (g h : Grid K V) (hg : Regular g) (hfl : Floats g) (hl : Labelled g)
    (ps : Option (List ℕ)) (hc : g.copy ps = .ok h) : Regular h ∧ Floats h ∧ Labelled h := by
  have key : ∀ l : List ℕ, (∀ p ∈ l, p < g.nProps) → g.copy (some l) = .ok h →
      Regular h ∧ Floats h ∧ Labelled h := by
    intro l hlp hc
    by_cases hu : g.gridunits.length = 1 ∨ g.gridunits.length = l.length
    · obtain ⟨h', c1, c2, -⟩ := C28_copy_partial g l hg hl hlp hu
      rw [hc] at c1
      simp only [Except.ok.injEq] at c1
      subst c1
      refine ⟨c2.regular, ⟨by rw [c2.axes.center]; exact hfl.1, ?_, by rw [c2.axes.pix]; exact hfl.2.2⟩,
        ⟨?_, ?_⟩⟩
      · -- the side length stays a float array
        unfold Grid.copy at hc
        rw [checkProps_ok g l hlp] at hc
        simp only at hc
        rcases hx : g.copyAxes l.length with e | x
        · simp [hx] at hc
        · rw [hx] at hc
          simp only [Except.ok.injEq] at hc
          subst hc
          show x.side.isInt = false
          obtain ⟨S, hS, hSv⟩ := spreadSide_full g.side g.center.vals.length hg.side
          have hSf : S.isInt = false := by
            unfold spreadSide at hS
            obtain ⟨-, hS⟩ := ite_ok hS
            rw [hS]
            split
            · rfl
            · exact hfl.2.1
          unfold Grid.copyAxes Grid.new at hx
          simp only [hS] at hx
          split at hx
          · cases hx
          split at hx
          · cases hx
          split at hx
          · cases hx
          split at hx
          · cases hx
          split at hx
          · cases hx
          simp only [Except.ok.injEq] at hx
          subst hx
          simp only
          split
          · exact hSf
          · rfl
      · rw [c2.axes.axunits, hl.1]; simp [Grid.dim, c2.axes.center]
      · rw [c2.axes.axunits, c2.axes.faxunits, hl.2]
    · rw [not_or] at hu
      rw [C28_selection_fails g l hg hl hu.1 hu.2 hlp] at hc
      cases hc
  rcases ps with _ | l
  · apply key (List.range g.nProps) (by simp)
    rw [← hc]
    unfold Grid.copy
    rw [checkProps_ok g (List.range g.nProps) (by simp)]
    rfl
  · refine key l ?_ hc
    by_contra hn
    unfold Grid.copy Grid.checkProps at hc
    simp only at hc
    rw [if_neg hn] at hc
    cases hc

/-- The parts of a grid that say what its units are. -/
def unitsOf (g : Grid K V) := (g.dim, g.axunits, g.faxunits)

theorem labelled_of_units {g g' : Grid K V} (hl : Labelled g) (h : unitsOf g' = unitsOf g) :
    Labelled g' := by
  simp only [unitsOf, Prod.mk.injEq] at h
  exact ⟨by rw [h.1, h.2.1]; exact hl.1, by rw [h.2.1, h.2.2]; exact hl.2⟩

theorem setAxes_units (plan : List (Option (AxisNew K))) (g : Grid K V) :
    unitsOf (g.setAxes plan) = unitsOf g := by
  unfold Grid.setAxes
  generalize plan.zipIdx = l
  induction l generalizing g with
  | nil => rfl
  | cons q l ih =>
    rw [List.foldl_cons, ih]
    rcases q with ⟨_ | a, i⟩ <;> rfl

theorem scaleLoop_units (factor : List K) (sc : Bool) (ax : List ℕ) (g : Grid K V) :
    unitsOf (scaleLoop factor sc ax g).1 = unitsOf g := by
  induction ax generalizing g with
  | nil => rfl
  | cons i ax ih =>
    have h1 : unitsOf (scaleOne g factor sc i).1 = unitsOf g := by
      unfold scaleOne
      rcases factor[i]? with _ | f
      · rfl
      · cases sc <;> simp [unitsOf, Grid.dim, NArr.put]
    simp only [scaleLoop]
    rcases h : scaleOne g factor sc i with ⟨g1, _ | u⟩
    · rw [h] at h1; exact h1
    · rw [h] at h1; exact (ih g1).trans h1

theorem addNewProp_units (g : Grid K V) (v : Option (Arr V)) :
    unitsOf (g.addNewProp v).1 = unitsOf g := by
  unfold Grid.addNewProp
  split
  · split <;> rfl
  · split <;> rfl

/-- One successful call. -/
theorem run_regular (op : GridOp K V) (hop : op.Sensible) (g g' : Grid K V) (hg : Regular g)
    (hfl : Floats g) (hl : Labelled g) (h : op.run g = (g', .ok ())) :
    Regular g' ∧ Floats g' ∧ Labelled g' := by
  have hg' : (op.run g).1 = g' := by rw [h]
  cases op with
  | init =>
    simp only [GridOp.run, Prod.mk.injEq, and_true] at h
    refine ⟨regular_add hg (some (zeros (g.nPix ++ [g.nProps]))) g.nProps 0 g.gridunits g.isPow
      ?_ h.symm, ?_, ?_⟩
    · intro x hx
      simp only [Option.some.injEq] at hx
      subst hx; rfl
    · subst h; exact hfl
    · subst h; exact hl
  | pad ax amounts val =>
    obtain ⟨h1, h2⟩ := padBy_regular g g' hg hfl ax amounts val h
    refine ⟨h1, h2, labelled_of_units hl ?_⟩
    rw [← hg']
    simp only [GridOp.run, Grid.padBy]
    split
    · rfl
    split
    · rfl
    split
    · rfl
    split
    · rfl
    rename_i plan _
    have : ∀ x : Option (Arr V), unitsOf ({ g.setAxes plan with grid := x } : Grid K V) = unitsOf g :=
      fun x => setAxes_units plan g
    split
    · exact this _
    · split <;> exact this _
  | crop ax min max =>
    simp only [GridOp.run] at h
    by_cases hax : ax < g.dim
    · obtain ⟨n, w, c, hn, hw, ha⟩ := hg.axis ax hax
      have hlt : ax < g.fourier.length := by rw [hg.fourier]; exact hax
      have hfo : g.fourier[ax]? = some (g.fourier[ax]'hlt) := List.getElem?_eq_getElem hlt
      cases hb : g.fourier[ax]'hlt with
      | true =>
        rw [hb] at hfo
        simp [Grid.crop, hfo, ha.axes, ha.centers, ha.pix] at h
      | false =>
        rw [hb] at hfo
        obtain ⟨lo, hi, a, m, k1, -, -, -, -, -, k7⟩ := crop_cases g hg hfl ax n w c hw ha hfo min max
        rw [k7] at h
        split at h
        · simp at h
        split at h
        · simp at h
        split at h
        · simp at h
        split at h
        · simp at h
        simp only [Prod.mk.injEq, and_true] at h
        obtain ⟨x1, x2⟩ := cropMost_cropped g hg hfl ax n a m w c hw ha k1 (by omega)
        rw [h] at x1 x2
        refine ⟨x1.regular, x2, ?_⟩
        apply labelled_of_units hl
        simp only [unitsOf, x1.dim, x1.units.1, x1.units.2.1]
    · have : g.fourier[ax]? = none := List.getElem?_eq_none (by rw [hg.fourier]; omega)
      simp [Grid.crop, this] at h
  | scale ax factor sc =>
    simp only [GridOp.run, Grid.scaleAxis] at h hg'
    split at h
    · simp at h
    rename_i hax
    rw [if_neg hax] at hg'
    rcases hsp : scaleSpread factor ax.length with e | fs
    · simp [hsp] at h
    · rw [hsp] at h hg'
      simp only at h hg'
      push Not at hax
      have hpos : ∀ f ∈ fs, 0 < f := by
        unfold scaleSpread at hsp
        by_cases c1 : factor.length = 1
        · rw [if_pos c1] at hsp
          simp only [Except.ok.injEq] at hsp
          subst hsp
          intro f hf
          rw [List.mem_replicate] at hf
          rw [hf.2]
          apply hop
          obtain ⟨x, rfl⟩ := List.length_eq_one_iff.1 c1
          simp
        · rw [if_neg c1] at hsp
          obtain ⟨-, rfl⟩ := ite_ok hsp
          exact hop
      obtain ⟨h1, h2⟩ := scaleLoop_regular fs hpos sc ax g g' hg hfl hax h
      exact ⟨h1, h2, labelled_of_units hl (by rw [← hg']; exact scaleLoop_units fs sc ax g)⟩
  | addNewProp v =>
    obtain ⟨h1, h2⟩ := addNewProp_regular g g' hg hfl v h
    exact ⟨h1, h2, labelled_of_units hl (by rw [← hg']; exact addNewProp_units g v)⟩
  | sum ps =>
    simp only [GridOp.run, Grid.sumInPlace] at h
    rcases ha : g.grid with _ | a
    · simp [ha] at h
    · rw [ha] at h
      simp only at h
      rcases hc : g.checkProps ps with e | qs
      · simp [hc] at h
      · rw [hc] at h
        simp only at h
        obtain ⟨h1, h2⟩ := addNewProp_regular g g' hg hfl _ h
        refine ⟨h1, h2, labelled_of_units hl ?_⟩
        have := addNewProp_units g (some (sumLast a qs))
        rw [h] at this
        exact this
  | copy ps =>
    simp only [GridOp.run] at h
    rcases hc : g.copy ps with e | x
    · simp [hc] at h
    · rw [hc] at h
      simp only [Prod.mk.injEq, and_true] at h
      subst h
      exact copy_regular g x hg hfl hl ps hc

/-- What is proved: any history of successful calls on a grid with float coordinates. -/
theorem C60_history_partial (g g' : Grid K V) (ops : List (GridOp K V)) (hg : Regular g)
    (hfl : Floats g) (hl : Labelled g) (hop : ∀ op ∈ ops, op.Sensible)
    (h : Succeeds g ops g') : Regular g' ∧ Floats g' ∧ Labelled g' := by
  induction h with
  | nil g => exact ⟨hg, hfl, hl⟩
  | cons g g1 g2 op ops h1 _ ih =>
    obtain ⟨r, f, l⟩ := run_regular op (hop op (List.mem_cons_self ..)) g g1 hg hfl hl h1
    exact ih r f l (fun o ho => hop o (List.mem_cons_of_mem _ ho))

/-- Where it fails: every grid with an axis in real space is left inconsistent by some call to
`crop`, which raises an exception after the change. -/
theorem C60_failed_crop_breaks (g : Grid K V) (hg : Regular g) (hfl : Floats g) (ax : ℕ)
    (hf : g.fourier[ax]? = some false) :
    ∃ op : GridOp K V, op.Sensible ∧ ¬ Regular (op.run g).1 := by
  have hax : ax < g.dim := by rw [← hg.fourier]; exact (List.getElem?_eq_some_iff.1 hf).1
  obtain ⟨n, w, c, hn, hw, ha⟩ := hg.axis ax hax
  have hget : ∀ j < n, (middles n w c)[j]? = some (mid n w c j) := by
    intro j hj
    rw [middles_eq, List.getElem?_map, List.getElem?_range hj]
    rfl
  have hm := mid_mono (n := n) (c := c) hw (show 0 < 1 by omega)
  obtain ⟨g', e, h1, h2, -⟩ := C22_gap_fails g hg hfl ax _
    ((2 * mid n w c 0 + mid n w c 1) / 3) ((mid n w c 0 + 2 * mid n w c 1) / 3) hf ha.centers 0 _ _
    (hget 0 (by omega)) (hget 1 (by omega)) (by linarith) (by linarith) (by linarith)
  refine ⟨.crop ax (some ((2 * mid n w c 0 + mid n w c 1) / 3))
    (some ((mid n w c 0 + 2 * mid n w c 1) / 3)), trivial, ?_⟩
  intro hr
  simp only [GridOp.run, h1] at hr
  have hax' : ax < g'.dim := by rw [← hr.centers]; exact (List.getElem?_eq_some_iff.1 h2).1
  obtain ⟨n', w', c', hn', -, ha'⟩ := hr.axis ax hax'
  have := ha'.centers
  rw [h2] at this
  have := congrArg List.length (Option.some.inj this)
  simp [middles] at this
  omega

theorem C60_full_false : ¬ C60_full K V := by
  intro h
  obtain ⟨g, -, hr, hfl, hl, -, -, -, hd, -, hf⟩ := new_two (K := K) (V := V) 1 [none] rfl
  obtain ⟨op, h1, h2⟩ := C60_failed_crop_breaks g hr hfl 0 (by rw [hf]; rfl)
  exact h2 (h g [op] hr (by simpa using h1))

/-- Integer coordinates: successful calls break the geometry.  Four cells of width 3/4 with an integer
extent are padded by one cell: the extent becomes 4 although six cells of width 3/4 have 9/2. -/
example : okAnd (Grid.new 1 ⟨true, [0, 0]⟩ ⟨true, [3, 3]⟩ ⟨false, [3 / 4, 3 / 4]⟩)
    (fun g : Grid ℚ ℚ =>
      okAnd ((GridOp.pad [0] [1] 0).run g).2 (fun _ => True) = true ∧
      ((GridOp.pad [0] [1] 0).run g).1.nPix = [6, 4] ∧
      ((GridOp.pad [0] [1] 0).run g).1.side.vals = [4, 3]) = true := by
  decide +kernel

/-- A history that meets the hypotheses: allocate, pad, crop, scale, sum, copy. -/
example : okAnd (Grid.new 1 ⟨false, [0, 0]⟩ ⟨false, [10, 10]⟩ ⟨false, [1, 1]⟩)
    (fun g : Grid ℚ ℚ =>
      let ops : List (GridOp ℚ ℚ) := [.init, .pad [0, 1] [2, 3] 0, .crop 1 (some 0) none,
        .scale [0, 1] [2, 3] true, .sum none, .copy none]
      (runAll ops g).nPix = [14, 8] ∧ (runAll ops g).nProps = 2 ∧
        (runAll ops g).pix.vals = [2, 3]) = true := by
  decide +kernel

end Verif.Map
