import Verif.Model.GridReduce

/-!
# Model of `Grid.spherical_average` (`simim/map/gridder.py`, lines 1575-1786)

`root` stands for `np.sqrt`, `drop` for the conversion of an entry of the data to a float (for a
complex number, the real part is kept).  Logarithmic shells and the standard deviations are
modelled in `Verif.Model.GridStd`.
-/

namespace Verif.Map

open Verif.Sim (Err)

variable {K V : Type}

/-- The indices of an array in the order of `flatten()`. -/
def indices : List ℕ → List (List ℕ)
  | [] => [[]]
  | n :: shape => (List.range n).flatMap (fun i => (indices shape).map (fun c => i :: c))

/-- The argument `shells`: a number (`None` means 10), or the edges. -/
inductive Shells (K : Type)
  | auto (n : ℕ)
  | given (l : List K)

/-- What is returned: the edges of the shells, the coordinates of the other axes, the averages (`none`
where they are not numbers), and the numbers of cells. -/
structure Average (K V : Type) where
  shells : List K
  others : List (List K)
  avg : Arr (Option V)
  count : Arr ℕ

section
variable [Field K] [LinearOrder K]

/-- `np.digitize(r, shells)` for increasing edges: the number of edges at or below `r`. -/
def digitize (shells : List K) (r : K) : ℕ := (shells.filter (fun s => decide (s ≤ r))).length

/-- The distance of a cell from the centre along the axes `ax`, lines 1676-1681. -/
def radius (root : K → K) (axvals : List (List K)) (center : List K) (ax i : List ℕ) : K :=
  root ((ax.map (fun k : ℕ =>
    ((axvals.getD k []).getD (i.getD k 0) 0 - center.getD k 0) ^ 2)).sum)

/-- The centre, lines 1650-1661. -/
def sphereCenter (g : Grid K V) (isFourier : Bool) (center : Option (List K)) : Except Err (List K) :=
  match center with
  | none => .ok (if isFourier then List.replicate g.dim 0 else g.center.vals)
  | some c => if c.length = g.dim then .ok c else .error .valueError

/-- The weight of each entry of the data, lines 1663-1674.  Weights with more axes than the data
are not represented (they count as an error here). -/
def sphereWeights (shape : List ℕ) (weights : Option (Arr K)) : Except Err (List ℕ → K) :=
  match weights with
  | none => .ok (fun _ => 1)
  | some w =>
    if shape.length < w.shape.length then .error .valueError
    else if ∃ p ∈ w.shape.zip shape, p.1 ≠ p.2 ∧ p.1 ≠ 1 then .error .valueError
    else .ok (fun i => w.get (bindex w.shape i))

/-- The edges of the shells, lines 1684-1719 (`binmode='linear'`). -/
def shellEdges (radii : List K) : Shells K → Except Err (List K)
  | .auto n =>
    match radii.min?, radii.max? with
    | some lo, some hi =>
      if n < 1 then .error .valueError
      else .ok ((List.range (n + 1)).map
        (fun k : ℕ => lo + k * ((hi + (hi - lo) / 10 ^ 10 - lo) / n)))
    | _, _ => .error .valueError
  | .given l =>
    if ∃ p ∈ l.zip l.tail, p.2 - p.1 ≤ 0 then .error .valueError
    else if l.length = 0 then .error .valueError                               -- line 1751
    else .ok l

/-- The entry of the result to which an entry of the data in shell `b` is added, lines 1733-1736. -/
def sphereCoords (ax : List ℕ) (b : ℕ) (i : List ℕ) : List ℕ :=
  b :: keepAxes ax i.dropLast ++ [i.getLastD 0]

variable [FloorRing K]

/-- `np.add.at(a, inds, vals)` for an integer array `a`: every sum is converted to an integer. -/
def addTrunc (a : Arr K) (l : List (List ℕ × K)) : Arr K :=
  l.foldl (fun b p => ⟨b.shape, fun j => if j = p.1 then trunc (b.get j + p.2) else b.get j⟩) a

variable [AddCommGroup V] [Module K V]

/-- The sums, lines 1728-1762; `bin` gives `bins_for_cells + 1`. -/
def sphereSums (g : Grid K V) (a : Arr V) (ax : List ℕ) (toData : V → V) (wt : List ℕ → K)
    (shells : List K) (others : List (List K)) (bin : List ℕ → ℕ) : Average K V :=
  let good := (indices a.shape).filter (fun i => decide (0 < bin i ∧ bin i + 1 < shells.length))
  let shape := (shells.length - 1) :: keepAxes ax g.nPix ++ [g.nProps]
  let sums := (zeros shape : Arr V).addAll
    (good.map (fun i => (sphereCoords ax (bin i - 1) i, toData (wt i • a.get i))))
  let ws := addTrunc (zeros shape : Arr K)
    (good.map (fun i => (sphereCoords ax (bin i - 1) i, wt i)))
  let ns := (zeros shape : Arr ℕ).addAll
    (good.map (fun i => (sphereCoords ax (bin i - 1) i, 1)))
  { shells := shells, others := others,
    avg := ⟨shape, fun j => if ws.get j = 0 then none else some ((ws.get j)⁻¹ • sums.get j)⟩,
    count := ns }

/-- `spherical_average`, lines 1627-1786. -/
def Grid.sphericalAverage (g : Grid K V) (root : K → K) (drop : V → V) (axes : Option (List ℕ))
    (center : Option (List K)) (shells : Shells K) (weights : Option (Arr K)) :
    Except Err (Average K V) :=
  match g.grid with
  | none => .error .valueError
  | some a =>
    let ax := axes.getD (List.range g.dim)
    if ∃ i ∈ ax, g.dim ≤ i then .error .valueError
    else if (∃ i ∈ ax, g.fourier.getD i false = false) ∧ ∃ i ∈ ax, g.fourier.getD i false = true then
      .error .valueError
    else
      let isFourier : Bool := decide (∀ i ∈ ax, g.fourier.getD i false = true)
      let axvals := if isFourier then g.fcenters else g.centers
      match sphereCenter g isFourier center with
      | .error e => .error e
      | .ok c =>
        match sphereWeights a.shape weights with
        | .error e => .error e
        | .ok wt =>
          match shellEdges ((indices a.shape).map (radius root axvals c ax)) shells with
          | .error e => .error e
          | .ok s =>
            .ok (sphereSums g a ax (if isFourier && !g.isPow then id else drop) wt s
              (keepAxes ax axvals) (fun i => digitize s (radius root axvals c ax i)))

end

end Verif.Map
