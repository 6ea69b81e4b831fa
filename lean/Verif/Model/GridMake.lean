import Verif.Model.GridAdd

/-!
# Model of `Gridder`, `GridFromAxes` and `GridFromAxesAndFunction` (`simim/map/gridder.py`)

Simplifications: numbers are exact except where a rounding function is a parameter; arguments are
arrays (or `None`) of the documented kinds; warnings are left out.
-/

namespace Verif.Map

open Verif.Sim (Err)

variable {K V : Type}

section
variable [Field K] [LinearOrder K] [FloorRing K]

/-! ## `Gridder` (lines 1975-2098) -/

/-- Column `j` of an array of positions. -/
def colOf (rows : List (List K)) (j : ℕ) : List K := rows.map (fun r => r.getD j 0)

/-- `np.amin` of a column with at least one entry. -/
def minOf (l : List K) : K := l.min?.getD 0

/-- `np.ptp` of a column with at least one entry. -/
def ptpOf (l : List K) : K := l.max?.getD 0 - l.min?.getD 0

/-- The number of dimensions, lines 2043-2055 (`setndims` is an integer). -/
def gridderDims (rows : List (List K)) (setndims : Option ℕ) : Except Err ℕ :=
  match setndims, rows with
  | none, [] => .error .valueError
  | none, r :: _ => .ok r.length
  | some d, [] => .ok d
  | some d, r :: _ => if d = r.length then .ok d else .error .valueError

/-- The centre, lines 2074-2083. -/
def gridderCenter (rows : List (List K)) (d : ℕ) (center : Option (NArr K)) : Except Err (NArr K) :=
  match center with
  | none =>
    .ok ⟨false, (List.range d).map (fun j =>
      let l := colOf rows j
      if ptpOf l = 0 then minOf l else minOf l + ptpOf l / 2)⟩
  | some c => if c.vals.length = d then .ok c else .error .valueError

/-- The side lengths, lines 2086-2094. -/
def gridderSide (rows : List (List K)) (d : ℕ) (side : Option (NArr K)) : Except Err (NArr K) :=
  match side with
  | none =>
    .ok ⟨false, (List.range d).map (fun j =>
      let l := colOf rows j
      if ptpOf l = 0 then 1 else ptpOf l * (10000001 / 10000000))⟩
  | some s => spreadSide s d

/-- `Gridder.__init__`, lines 1975-2098. -/
def gridder [AddCommMonoid V] [One V] (positions : Pos K) (values : Option (Vals V) := none)
    (center side : Option (NArr K) := none) (pix : NArr K := ⟨true, [1]⟩)
    (axunits gridunits : Option (List (Option String)) := none) (setndims : Option ℕ := none) :
    Except Err (Grid K V) :=
  let rows := positions.rows                                                   -- lines 2037-2041
  match gridderDims rows setndims with
  | .error e => .error e
  | .ok d =>
    let v := values.getD (ones rows.length)                                    -- lines 2059-2065
    if v.rows.length ≠ rows.length then .error .valueError                     -- lines 2067-2068
    else if (center = none ∨ side = none) ∧ rows = [] then .error .valueError  -- lines 2071-2073
    else
      match gridderCenter rows d center with
      | .error e => .error e
      | .ok c =>
        match gridderSide rows d side with
        | .error e => .error e
        | .ok s =>
          match (Grid.new v.cols c s pix axunits gridunits : Except Err (Grid K V)) with
          | .error e => .error e
          | .ok g =>
            match g.init.addFromCat { positions with flat := false }
                (some { v with flat := false }) false none with
            | (_, .error e) => .error e
            | (g', .ok ()) => .ok g'

/-! ## `GridFromAxes` (lines 2322-2373) -/

/-- `np.isclose(a, b)`. -/
def isclose (a b : K) : Bool := decide (|a - b| ≤ 1 / 10 ^ 8 + 1 / 10 ^ 5 * |b|)

/-- Lines 2352-2359 for one axis: centre, side length and pixel size; `rd` is the rounding of
floating point numbers.  One edge: the pixel size is 0/0, here 0. -/
def axisPlan (rd : K → K) (ax : List K) : Except Err (K × K × K) :=
  let steps := diff ax
  match ax.head?, ax.getLast? with
  | some a, some b =>
    if steps.all (fun s => isclose s (steps.headD 0)) then
      let side := rd (b - a)
      .ok (rd (rd (b + a) / 2), side, rd (side / ((ax.length - 1 : ℕ) : K)))
    else .error .valueError
  | _, _ => .error .indexError

/-- Lines 172-175 and again 2367-2370 with rounded operations: the side lengths `pix * n` are used
on every axis if some quotient is not the number of pixels `n`. -/
def refitSide (rd : K → K) (side pix : List K) (ns : List ℕ) : List K :=
  if List.zipWith (fun s w => rd (s / w)) side pix = ns.map (fun n : ℕ => (n : K)) then side
  else List.zipWith (fun w (n : ℕ) => rd (w * n)) pix ns

/-- `GridFromAxes.__init__`, lines 2323-2373; lines 185-193 use exact numbers. -/
def gridFromAxes (rd : K → K) (axes : List (NArr K)) (nProps : ℕ := 1)
    (axunits gridunits : Option (List (Option String)) := none) : Except Err (Grid K V) :=
  match mapE (fun a : NArr K => axisPlan rd a.vals) axes with
  | .error e => .error e
  | .ok plan =>
    let ints := axes.all (fun a => a.isInt)
    match (Grid.new nProps ⟨false, plan.map (·.1)⟩ ⟨ints, plan.map (·.2.1)⟩
        ⟨false, plan.map (·.2.2)⟩ axunits gridunits : Except Err (Grid K V)) with
    | .error e => .error e
    | .ok g =>
      let side := refitSide rd (plan.map (·.2.1)) (plan.map (·.2.2)) g.nPix    -- lines 172-175
      let ns := List.zipWith (fun s w => (⌈rd (s / w)⌉).toNat) side g.pix.vals -- lines 2367-2373
      .ok { g with side := { g.side with vals := refitSide rd side g.pix.vals ns }, nPix := ns }

/-- `GridFromAxesAndFunction.__init__`, lines 2411-2416: the function gets the lists of cell centres. -/
def gridFromFunction [Zero V] (rd : K → K) (f : List (List K) → Arr V) (axes : List (NArr K))
    (nProps : ℕ := 1) (axunits gridunits : Option (List (Option String)) := none) :
    Except Err (Grid K V) :=
  match (gridFromAxes rd axes nProps axunits gridunits : Except Err (Grid K V)) with
  | .error e => .error e
  | .ok g =>
    let a := f g.centers
    if a.shape ++ [1] = g.nPix ++ [g.nProps] then
      .ok { g with grid := some ⟨a.shape ++ [1], fun i => a.get i.dropLast⟩, nObj := 0 }
    else .error .valueError

end

end Verif.Map
