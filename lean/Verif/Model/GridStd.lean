import Verif.Model.GridSphere
import Mathlib.Algebra.Algebra.Basic

/-!
# Model of the standard deviations and the logarithmic shells of `Grid.spherical_average`
(`simim/map/gridder.py`, lines 1684-1719 and 1764-1786)

As in `Verif.Model.GridSphere`; entries of the data can be multiplied.  `rootV` stands for `np.sqrt` applied to an entry
of the result, `none` if this is not a number.  `log10` and `p10` are the logarithm and the power of ten.
-/

namespace Verif.Map

open Verif.Sim (Err)

variable {K V : Type}

/-- The argument `binmode`. -/
inductive BinMode
  | linear | log | other
  deriving DecidableEq

section
variable [Field K] [LinearOrder K]

/-- Logarithmic shells, lines 1686-1709. -/
def logEdges (log10 p10 : K → K) (radii : List K) (n : ℕ) : Except Err (List K) :=
  match radii.min?, radii.max? with
  | some lo, some hi =>
    if n < 1 then .error .valueError
    else
      let top := hi + (hi - lo) / 10 ^ 10
      match (if lo ≤ 0 then (radii.filter (fun x => decide (0 < x))).min? else some lo) with
      | none => .error .valueError
      | some lo' => .ok ((List.range (n + 1)).map
          (fun k : ℕ => p10 (log10 lo' + k * ((log10 top - log10 lo') / n))))
  | _, _ => .error .valueError

/-- The edges of the shells, lines 1684-1719. -/
def edgesFor (log10 p10 : K → K) (mode : BinMode) (sh : Shells K) (radii : List K) : Except Err (List K) :=
  match sh with
  | .given l => shellEdges radii (.given l)
  | .auto n =>
    match mode with
    | .linear => shellEdges radii (.auto n)
    | .log => logEdges log10 p10 radii n
    | .other => .error .valueError

/-- What is computed before the sums, lines 1627-1736: the axes, whether complex numbers are kept, the weights, the edges,
the coordinates of the other axes, and `bins_for_cells + 1`. -/
structure SpherePlan (K : Type) where
  ax : List ℕ
  complex : Bool
  wt : List ℕ → K
  shells : List K
  others : List (List K)
  bin : List ℕ → ℕ

/-- Lines 1627-1736. -/
def Grid.spherePlan (g : Grid K V) (log10 p10 root : K → K) (axes : Option (List ℕ)) (center : Option (List K))
    (mode : BinMode) (sh : Shells K) (weights : Option (Arr K)) : Except Err (Arr V × SpherePlan K) :=
  match g.grid with
  | none => .error .valueError
  | some a =>
    let ax := axes.getD (List.range g.dim)
    if ∃ i ∈ ax, g.dim ≤ i then .error .valueError
    else if (∃ i ∈ ax, g.fourier.getD i false = false) ∧ ∃ i ∈ ax, g.fourier.getD i false = true then
      .error .valueError
    else
      let isFourier : Bool := decide (∀ i ∈ ax, g.fourier.getD i false = true)
      let axvals := if isFourier then g.fcenters else g.centers
      match sphereCenter g isFourier center with
      | .error e => .error e
      | .ok c =>
        match sphereWeights a.shape weights with
        | .error e => .error e
        | .ok wt =>
          match edgesFor log10 p10 mode sh ((indices a.shape).map (radius root axvals c ax)) with
          | .error e => .error e
          | .ok s => .ok (a, ⟨ax, isFourier && !g.isPow, wt, s, keepAxes ax axvals,
              fun i => digitize s (radius root axvals c ax i)⟩)

variable [FloorRing K] [CommRing V] [Algebra K V]

/-- The standard deviations, lines 1764-1779.  `none` where they are not (finite) numbers. -/
def sphereStd (g : Grid K V) (a : Arr V) (rootV : V → Option V) (toData : V → V) (biased : Bool) (pl : SpherePlan K)
    (avg : Arr (Option V)) : Arr (Option V) :=
  let good := (indices a.shape).filter (fun i => decide (0 < pl.bin i ∧ pl.bin i + 1 < pl.shells.length))
  let shape := (pl.shells.length - 1) :: keepAxes pl.ax g.nPix ++ [g.nProps]
  let at_ (i : List ℕ) := sphereCoords pl.ax (pl.bin i - 1) i
  let sums := (zeros shape : Arr V).addAll (good.map (fun i => (at_ i,
    toData (pl.wt i • (a.get i - (avg.get (at_ i)).getD 0) ^ 2))))
  let ws := addTrunc (zeros shape : Arr K) (good.map (fun i => (at_ i, pl.wt i)))
  let ws2 := addTrunc (zeros shape : Arr K) (good.map (fun i => (at_ i, pl.wt i ^ 2)))
  ⟨shape, fun j =>
    if ws.get j = 0 then none
    else if biased then rootV ((ws.get j)⁻¹ • sums.get j)
    else if ws.get j - ws2.get j / ws.get j = 0 then none
    else rootV ((ws.get j - ws2.get j / ws.get j)⁻¹ • sums.get j)⟩

/-- `spherical_average(..., return_n=True, return_std=True)`, lines 1573-1786. -/
def Grid.sphereFull (g : Grid K V) (log10 p10 root : K → K) (rootV : V → Option V) (drop : V → V)
    (axes : Option (List ℕ)) (center : Option (List K)) (mode : BinMode) (sh : Shells K) (weights : Option (Arr K))
    (biased : Bool) : Except Err (Average K V × Arr (Option V)) :=
  match g.spherePlan log10 p10 root axes center mode sh weights with
  | .error e => .error e
  | .ok (a, pl) =>
    let toData := if pl.complex then id else drop
    let r := sphereSums g a pl.ax toData pl.wt pl.shells pl.others pl.bin
    .ok (r, sphereStd g a rootV toData biased pl r.avg)

end

end Verif.Map
