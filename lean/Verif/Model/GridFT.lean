import Verif.Model.Grid
import Mathlib.Analysis.SpecialFunctions.Exp
import Mathlib.Analysis.SpecialFunctions.Complex.Log

/-!
# Model of `Grid` (`simim/map/gridder.py`): Fourier transforms and power spectra, lines 1353-1572

The values are complex numbers (a real map is a map with real values), coordinates are real
numbers, both exact.  Negative axis numbers (refused by the code) are not represented.
-/

namespace Verif.Map

open Verif.Sim (Err)
open scoped BigOperators

/-! ## numpy's transforms -/

/-- A linear operation along one axis, with a matrix that may depend on the number `n` of cells. -/
noncomputable def Arr.along (a : Arr ℂ) (M : ℕ → ℕ → ℕ → ℂ) (ax : ℕ) : Arr ℂ :=
  ⟨a.shape, fun i => ∑ j ∈ Finset.range (a.shape.getD ax 0),
    M (a.shape.getD ax 0) (i.getD ax 0) j * a.get (i.set ax j)⟩

/-- The matrix of `np.fft.fft`. -/
noncomputable def fftM (n k j : ℕ) : ℂ := Complex.exp (-(2 * Real.pi * Complex.I * k * j / n))

/-- The matrix of `np.fft.ifft`. -/
noncomputable def ifftM (n k j : ℕ) : ℂ := Complex.exp (2 * Real.pi * Complex.I * k * j / n) / n

/-- `np.fft.fftn(a, axes=ax)`: one axis after the other, the last one first. -/
noncomputable def Arr.fftn (a : Arr ℂ) (ax : List ℕ) : Arr ℂ :=
  ax.foldr (fun i b => b.along fftM i) a

/-- `np.fft.ifftn(a, axes=ax)`. -/
noncomputable def Arr.ifftn (a : Arr ℂ) (ax : List ℕ) : Arr ℂ :=
  ax.foldr (fun i b => b.along ifftM i) a

/-- `np.roll(a, s, axis=ax)`: entry `k` comes from `k - s` modulo the length. -/
def Arr.roll {V : Type} (a : Arr V) (s : ℤ) (ax : ℕ) : Arr V :=
  ⟨a.shape, fun i =>
    a.get (i.set ax ((((i.getD ax 0 : ℕ) : ℤ) - s) % ((a.shape.getD ax 0 : ℕ) : ℤ)).toNat)⟩

/-- `np.fft.fftshift(a, axes=ax)`: each axis rolled by half its length (the shifts of an axis named
twice add up). -/
def Arr.fftshift {V : Type} (a : Arr V) (ax : List ℕ) : Arr V :=
  ax.foldl (fun b i => b.roll ((b.shape.getD i 0 / 2 : ℕ) : ℤ) i) a

/-- `np.fft.ifftshift(a, axes=ax)`. -/
def Arr.ifftshift {V : Type} (a : Arr V) (ax : List ℕ) : Arr V :=
  ax.foldl (fun b i => b.roll (-((b.shape.getD i 0 / 2 : ℕ) : ℤ)) i) a

/-- `a *= c`. -/
noncomputable def Arr.scale (a : Arr ℂ) (c : ℝ) : Arr ℂ := ⟨a.shape, fun i => (c : ℂ) * a.get i⟩

/-! ## `fourier_transform`, lines 1353-1410 -/

/-- Set the flags of these axes. -/
def setFlags (flags : List Bool) (ax : List ℕ) (b : Bool) : List Bool :=
  ax.foldl (fun f i => f.set i b) flags

/-- The product of the pixel sizes, lines 1386-1396. -/
noncomputable def pixProd (pix : List ℝ) (ax : List ℕ) : ℝ := (ax.map (fun i => pix.getD i 0)).prod

/-- Lines 1399-1401. -/
noncomputable def forwardPart (a : Arr ℂ) (pix : List ℝ) (ax : List ℕ) (normalize : Bool) : Arr ℂ :=
  let b := (a.fftn ax).fftshift ax
  if normalize then b.scale (pixProd pix ax) else b

/-- Lines 1406-1408. -/
noncomputable def backwardPart (a : Arr ℂ) (pix : List ℝ) (ax : List ℕ) (normalize : Bool) :
    Arr ℂ :=
  let b := (a.ifftshift ax).ifftn ax
  if normalize then b.scale (1 / pixProd pix ax) else b

/-- `fourier_transform`, lines 1353-1410. -/
noncomputable def Grid.ft (g : Grid ℝ ℂ) (ax : Option (List ℕ)) (normalize : Bool) :
    Grid ℝ ℂ × Except Err Unit :=
  match g.grid with
  | none => (g, .error .valueError)
  | some a =>
    if g.isPow then (g, .error .valueError)
    else
      let ax := ax.getD (List.range g.dim)
      if ∃ i ∈ ax, g.dim ≤ i then (g, .error .valueError)
      else
        let forward := ax.filter (fun i => !g.fourier.getD i false)            -- lines 1386-1396
        let backward := ax.filter (fun i => g.fourier.getD i false)
        let b := forwardPart a g.pix.vals forward normalize
        let c := backwardPart b g.pix.vals backward normalize
        ({ g with grid := some c,
                  fourier := setFlags (setFlags g.fourier forward true) backward false }, .ok ())

/-! ## `power_spectrum`, lines 1414-1572 -/

/-- The shape of the product of two arrays of equal dimension; `none` if they cannot be broadcast. -/
def bshape : List ℕ → List ℕ → Option (List ℕ)
  | [], [] => some []
  | n :: s, m :: t =>
    if n = m then (bshape s t).map (fun r => n :: r)
    else if n = 1 then (bshape s t).map (fun r => m :: r)
    else if m = 1 then (bshape s t).map (fun r => n :: r)
    else none
  | _, _ => none

/-- The index into a broadcast array. -/
def bindex (shape i : List ℕ) : List ℕ := List.zipWith (fun n k => if n = 1 then 0 else k) shape i

/-- `(a * b.conj()).real`, lines 1517-1523, 1550-1556. -/
noncomputable def crossPower (a b : Arr ℂ) : Except Err (Arr ℂ) :=
  match bshape a.shape b.shape with
  | none => .error .valueError
  | some s => .ok ⟨s, fun i =>
      ((a.get (bindex a.shape i) * (starRingEnd ℂ) (b.get (bindex b.shape i))).re : ℂ)⟩

/-- The axes that have to be transformed, lines 1481-1487 (and 1494-1500). -/
def transformList (flags : List Bool) (ax : List ℕ) (dim : ℕ) : List ℕ :=
  ax.filter (fun i => !flags.getD i false) ++
    (List.range dim).filter (fun i => decide (i ∉ ax) && flags.getD i false)

/-- The data of a grid (they exist when this is used). -/
def Grid.data (g : Grid ℝ ℂ) : Arr ℂ := g.grid.getD (zeros [])

/-- The checks on the cross grid, lines 1459-1470. -/
def crossOk (g : Grid ℝ ℂ) : Option (Grid ℝ ℂ) → Bool
  | none => true
  | some c => c.grid.isSome && !c.isPow && decide (c.dim = g.dim) &&
      (decide (c.nProps = 1) || decide (g.nProps = 1) || decide (c.nProps = g.nProps))

/-- What a call of `power_spectrum` leaves behind: the map, the cross map, and the grid it
returns. -/
structure PowOut where
  self : Grid ℝ ℂ
  cross : Option (Grid ℝ ℂ)
  result : Except Err (Grid ℝ ℂ)

/-- The transform of the cross map, line 1503, and the inverse, lines 1535, 1569. -/
noncomputable def crossFt (c : Option (Grid ℝ ℂ)) (l : List ℕ) (normalize : Bool) :
    Option (Grid ℝ ℂ) :=
  c.map (fun c => (c.ft (some l) normalize).1)

/-- `power_spectrum`, lines 1414-1572; `cross = none` also stands for a cross map that is the map
itself (lines 1457-1458).  The text of the units (lines 1506-1513), which is not used, is left out. -/
noncomputable def Grid.powerSpectrum (g : Grid ℝ ℂ) (cross : Option (Grid ℝ ℂ))
    (ax : Option (List ℕ)) (inPlace normalize : Bool) : PowOut :=
  if g.grid = none then ⟨g, cross, .error .valueError⟩
  else if g.isPow then ⟨g, cross, .error .valueError⟩
  else if !crossOk g cross then ⟨g, cross, .error .valueError⟩
  else
    let ax := ax.getD (List.range g.dim)
    if ∃ i ∈ ax, g.dim ≤ i then ⟨g, cross, .error .valueError⟩
    else
      let l := transformList g.fourier ax g.dim
      let lc := (cross.map (fun c => transformList c.fourier ax g.dim)).getD []
      let g1 := (g.ft (some l) normalize).1
      let c1 := crossFt cross lc normalize
      let other := (c1.getD g1).data
      if inPlace then
        match crossPower g1.data other with
        | .error e => ⟨g1, c1, .error e⟩
        | .ok p =>
          let g2 := { g1 with grid := some p, isPow := true }
          ⟨g2, crossFt c1 lc normalize, .ok g2⟩
      else
        match Grid.new g1.nProps g1.center g1.side g1.pix (some g1.axunits) (some g1.gridunits) with
        | .error e => ⟨g1, c1, .error e⟩
        | .ok (w : Grid ℝ ℂ) =>
          match crossPower g1.data other with
          | .error e => ⟨g1, c1, .error e⟩
          | .ok p =>
            ⟨(g1.ft (some l) normalize).1, crossFt c1 lc normalize,
              .ok { w with grid := some p, isPow := true, nObj := g1.nObj,
                           fourier := g1.fourier.map (fun _ => true) }⟩

end Verif.Map
