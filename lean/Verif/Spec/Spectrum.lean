import Verif.Spec.GridSphere
import Mathlib.Analysis.SpecialFunctions.Exp
import Mathlib.Analysis.SpecialFunctions.Complex.Log

/-!
# Vocabulary for statements about the values of power spectra
-/

namespace Verif.Map.Spec

open scoped BigOperators

/-- One axis of a map: is it transformed, how many cells does it have, how wide are they, and
which frequency is listed at each position in Fourier space. -/
structure WaveAxis where
  used : Bool
  n : ℕ
  w : ℝ
  fs : List ℝ

/-- The axes of a grid, when those with the numbers `ax` are transformed. -/
def waveAxes (g : Grid ℝ ℂ) (ax : List ℕ) : List WaveAxis :=
  (List.range g.dim).map (fun d =>
    ⟨decide (d ∈ ax), g.nPix.getD d 0, g.pix.vals.getD d 0, g.fcenters.getD d []⟩)

/-- The cells `k` and `j` have the same number along all axes that are not transformed. -/
def AgreeElsewhere : List WaveAxis → List ℕ → List ℕ → Bool
  | x :: axs, k :: ks, j :: js => (x.used || k == j) && AgreeElsewhere axs ks js
  | _, _, _ => true

/-- The frequencies at position `k` times the distances of cell `j` from the first cell, added up
over the transformed axes. -/
def phase : List WaveAxis → List ℕ → List ℕ → ℝ
  | x :: axs, k :: ks, j :: js =>
    (if x.used then x.fs.getD k 0 * (j * x.w) else 0) + phase axs ks js
  | _, _, _ => 0

/-- The size of a cell: the product of its widths along the transformed axes. -/
def cellSize (axs : List WaveAxis) : ℝ := ((axs.filter (·.used)).map (·.w)).prod

/-- The number of frequencies: the product of the numbers of cells of the transformed axes. -/
def modes (axs : List WaveAxis) : ℕ := ((axs.filter (·.used)).map (·.n)).prod

/-- The amplitude of the wave at position `k` in a map with the values `v`: the sum of
`v(x)·exp(-2πi·f·x)` over the cells, times the size of a cell if the transform is normalised. -/
noncomputable def amplitude (axs : List WaveAxis) (normalize : Bool) (v : List ℕ → ℂ) (k : List ℕ) :
    ℂ :=
  (if normalize then (cellSize axs : ℂ) else 1) *
    (((allCells (axs.map (·.n))).filter (AgreeElsewhere axs k)).map (fun j =>
      Complex.exp (-(2 * Real.pi * Complex.I * phase axs k j)) * v j)).sum

/-- The axes transformed by a call with the argument `ax`. -/
def chosen (g : Grid ℝ ℂ) (ax : Option (List ℕ)) : List ℕ := ax.getD (List.range g.dim)

/-- Cell `j` moved by `s` cells along each axis, around the edges of the map. -/
def moved : List ℕ → List ℕ → List ℕ → List ℕ
  | n :: shape, s :: ss, j :: js => (j + s) % n :: moved shape ss js
  | _, _, _ => []

/-- The second map is the first one moved by `s` cells, around its edges. -/
def Moved (shape s : List ℕ) (v v' : List ℕ → ℂ) : Prop :=
  ∀ j ∈ allCells shape, v' (moved shape s j) = v j

/-- The frequencies listed at position `l` are the opposite ones of those at position `k`. -/
def Opposite : List WaveAxis → List ℕ → List ℕ → Prop
  | x :: axs, k :: ks, l :: ls =>
    (if x.used then x.fs.getD l 0 = -x.fs.getD k 0 else l = k) ∧ Opposite axs ks ls
  | [], [], [] => True
  | _, _, _ => False

/-- The cell of a position, if it is inside the grid. -/
noncomputable def home (g : Grid ℝ ℂ) (row : List ℝ) : Option (List ℕ) :=
  (allCells g.nPix).find? (fun c => decide (InCell g.axes c row))

/-- What an object adds to the amplitude: its value, with the phase of the cell it is in. -/
noncomputable def objectWave (g : Grid ℝ ℂ) (axs : List WaveAxis) (k : List ℕ) (o : List ℝ × ℂ) :
    ℂ :=
  match home g o.1 with
  | none => 0
  | some c => if AgreeElsewhere axs k c then
      Complex.exp (-(2 * Real.pi * Complex.I * phase axs k c)) * o.2 else 0

/-- The position of frequency zero on every axis. -/
def origin (g : Grid ℝ ℂ) : List ℕ := g.nPix.map (· / 2)

/-- The frequencies in shell number `k`: those whose length is at or above edge `k` and below edge `k + 1`, at
position `c` along the axes that were not transformed. -/
noncomputable def shellModes (g : Grid ℝ ℂ) (ax : List ℕ) (edges : List ℝ) (k : ℕ) (c : List ℕ) :
    List (List ℕ) :=
  members g.nPix Real.sqrt g.fcenters (List.replicate g.dim 0) ax edges k c

/-- The power of property `q` at position `d`. -/
noncomputable def power (g : Grid ℝ ℂ) (ax : List ℕ) (nz : Bool) (a : Arr ℂ) (q : ℕ) (d : List ℕ) : ℝ :=
  Complex.normSq (amplitude (waveAxes g ax) nz (fun j => cell a j q) d)

end Verif.Map.Spec
