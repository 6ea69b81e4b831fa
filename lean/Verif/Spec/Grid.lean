import Verif.Model.Grid

/-!
# Vocabulary for statements about grids
-/

namespace Verif.Map.Spec

variable {K V : Type} [Field K]

/-- The edges of `n` cells of width `pix` around `center`. -/
def edges (n : ℕ) (pix center : K) : List K :=
  (List.range (n + 1)).map (fun j : ℕ => center - n * pix / 2 + j * pix)

/-- Their centres: half-way between their edges. -/
def middles (n : ℕ) (pix center : K) : List K :=
  (List.range n).map (fun j : ℕ => center - n * pix / 2 + (j + 1 / 2) * pix)

/-- The frequencies of a discrete Fourier transform of `n` samples at distance `pix`, increasing,
with zero at position `n / 2`. -/
def freqs (n : ℕ) (pix : K) : List K :=
  (List.range n).map (fun k : ℕ => ((k : K) - ((n / 2 : ℕ) : K)) / (n * pix))

/-- The list stored as edges of the Fourier axis: outer edges half a step outside; the
inner ones are cell centres (see C59). -/
def fedges (n : ℕ) (pix : K) : List K :=
  (List.range (n + 1)).map (fun k : ℕ =>
    if k = 0 then (-((n / 2 : ℕ) : K) - 1 / 2) / (n * pix)
    else if k = n then ((n : K) - ((n / 2 : ℕ) : K) - 1 / 2) / (n * pix)
    else ((k : K) - ((n / 2 : ℕ) : K)) / (n * pix))

/-- Axis `i` of the grid has `n` cells of width `w` around `c`, and every stored description
of it says so. -/
structure AxisIs (g : Grid K V) (i n : ℕ) (w c : K) : Prop where
  nPix : g.nPix[i]? = some n
  pix : g.pix.vals[i]? = some w
  center : g.center.vals[i]? = some c
  side : g.side.vals[i]? = some (n * w)
  axes : g.axes[i]? = some (edges n w c)
  centers : g.centers[i]? = some (middles n w c)
  fcenters : g.fcenters[i]? = some (freqs n w)
  faxes : g.faxes[i]? = some (fedges n w)

/-- A grid whose descriptions agree with each other: each axis has at least two cells of
positive width, and the data array, if there is one, has their shape. -/
structure Regular [LinearOrder K] (g : Grid K V) : Prop where
  nPix : g.nPix.length = g.dim
  pix : g.pix.vals.length = g.dim
  side : g.side.vals.length = g.dim
  axes : g.axes.length = g.dim
  centers : g.centers.length = g.dim
  fcenters : g.fcenters.length = g.dim
  faxes : g.faxes.length = g.dim
  fourier : g.fourier.length = g.dim
  axis : ∀ i < g.dim, ∃ n w c, 2 ≤ n ∧ 0 < w ∧ AxisIs g i n w c
  data : ∀ a, g.grid = some a → a.shape = g.nPix ++ [g.nProps]

/-- The coordinates are stored as floating point numbers. -/
def Floats (g : Grid K V) : Prop :=
  g.center.isInt = false ∧ g.side.isInt = false ∧ g.pix.isInt = false

/-- Equal data arrays (or none). -/
def SameData (a b : Option (Arr V)) : Prop :=
  match a, b with
  | none, none => True
  | some x, some y => x.Same y
  | _, _ => False

/-- Equal grids: all descriptions are equal, and the data. -/
def Same (g h : Grid K V) : Prop :=
  SameData g.grid h.grid ∧ ({ g with grid := none } : Grid K V) = { h with grid := none }

/-- The value of property `p` in cell `c`. -/
def cell (a : Arr V) (c : List ℕ) (p : ℕ) : V := a.get (c ++ [p])

/-- The number of cells that `pad(ax, pad)` is asked to add on each side of axis `i`. -/
def amount (ax : List ℕ) (pad : List ℤ) (i : ℕ) : ℤ :=
  if i ∈ ax then pad.getD (ax.idxOf i) 0 else 0

/-- The combinations of axes and amounts for which `pad` looks up the amounts it was given:
for each axis `i` to be changed, `pad[ax[i]]` is the amount for axis `i`. -/
def Aligned (ax : List ℕ) (pad : List ℤ) : Prop :=
  ∀ i, amount ax pad i ≠ 0 → ∃ a, ax[i]? = some a ∧ pad[a]? = some (amount ax pad i)

/-- The width of the cells of an axis after its `n` cells of width `w` became `k`: the same in real
space; in Fourier space the frequency step `1 / (n * w)` stays the same instead. -/
def padWidth (fourier : Bool) (n k : ℕ) (w : K) : K := if fourier then n * w / k else w

/-- Within the limits, where `none` is no limit. -/
def Inside [LinearOrder K] (min max : Option K) (x : K) : Prop :=
  (∀ l, min = some l → l ≤ x) ∧ (∀ h, max = some h → x ≤ h)

/-- `g'` is `g` with only the cells `a, …, a + m - 1` of axis `ax`. -/
structure Cropped [LinearOrder K] (g g' : Grid K V) (ax a m : ℕ) : Prop where
  regular : Regular g'
  nProps : g'.nProps = g.nProps
  nObj : g'.nObj = g.nObj
  units : g'.axunits = g.axunits ∧ g'.faxunits = g.faxunits ∧ g'.gridunits = g.gridunits
  spaces : g'.fourier = g.fourier ∧ g'.isPow = g.isPow
  dim : g'.dim = g.dim
  pix : g'.pix = g.pix
  nPix : g'.nPix = g.nPix.set ax m
  axes : g'.axes = g.axes.modify ax (fun e => (e.drop a).take (m + 1))
  centers : g'.centers = g.centers.modify ax (fun e => (e.drop a).take m)
  others : ∀ i, i ≠ ax → ∀ n w c, AxisIs g i n w c → AxisIs g' i n w c
  none : g.grid = none → g'.grid = none
  cells : ∀ x, g.grid = some x → ∃ y, g'.grid = some y ∧
    ∀ (c : List ℕ) (p : ℕ), Valid g'.nPix c → p < g.nProps →
      cell y c p = cell x (c.modify ax (a + ·)) p

/-- The units of the axes are complete. -/
def Labelled (g : Grid K V) : Prop :=
  g.axunits.length = g.dim ∧ g.faxunits = g.axunits.map (fun u => u.map (· ++ "^-1"))

/-- The same axes: all descriptions of the axes and their units are equal. -/
structure SameAxes (g h : Grid K V) : Prop where
  center : h.center = g.center
  side : h.side.vals = g.side.vals
  pix : h.pix = g.pix
  nPix : h.nPix = g.nPix
  axunits : h.axunits = g.axunits
  faxunits : h.faxunits = g.faxunits
  axes : h.axes = g.axes
  centers : h.centers = g.centers
  faxes : h.faxes = g.faxes
  fcenters : h.fcenters = g.fcenters

end Verif.Map.Spec
