import Verif.Model.NdArray
import Verif.Model.PyDict

/-!
# Model of `Grid` (`simim/map/gridder.py`): construction and geometry

A method that changes the object is modelled as a function to the new object and the
outcome, so that what it did before raising stays visible.

Simplifications: numbers are exact; a zero pixel size (inf/nan in numpy, then an error on conversion
or allocation) is a `ValueError`.  `K` is the type of coordinates, `V` that of the grid values.
-/

namespace Verif.Map

open Verif.Sim (Err)

/-- A `Grid` object, `gridder.py:126-198`; `grid = none` if `grid_active` is `False`. -/
structure Grid (K V : Type) where
  nProps : ℕ
  nObj : ℕ
  center : NArr K
  side : NArr K
  pix : NArr K
  nPix : List ℕ
  axunits : List (Option String)
  faxunits : List (Option String)
  gridunits : List (Option String)
  axes : List (List K)
  centers : List (List K)
  faxes : List (List K)
  fcenters : List (List K)
  fourier : List Bool
  isPow : Bool
  grid : Option (Arr V)

/-- `n_dimensions` (line 132). -/
def Grid.dim {K V : Type} (g : Grid K V) : ℕ := g.center.vals.length

variable {K V : Type}

/-! ## Construction (lines 19-24, 51-198) -/

section
variable [Field K] [LinearOrder K] [FloorRing K]

/-- `_axis_edges`, lines 19-24: an axis of fewer than two cells raises `IndexError`. -/
def axisEdges (ax : List K) : Except Err (List K) :=
  let diff := List.zipWith (fun b a => b - a) ax.tail ax
  match ax.head?, ax.getLast?, diff.head?, diff.getLast? with
  | some a0, some al, some d0, some dl =>
    .ok ([a0 - d0 / 2] ++ List.zipWith (· + ·) ax.dropLast diff ++ [al + dl / 2])
  | _, _, _, _ => .error .indexError

/-- Cell edges along an axis, lines 185-188 (and 317). -/
def edgesOf (n : ℕ) (pix side center : K) : List K :=
  (List.range (n + 1)).map (fun j : ℕ => (j : K) * pix - side / 2 + center)

/-- Cell centres along an axis, lines 189, 318. -/
def centersOf (edges : List K) (pix : K) : List K := edges.dropLast.map (· + pix / 2)

/-- Cell centres along a Fourier axis, lines 192, 320, 396. -/
def fcentersOf (n : ℕ) (pix : K) : List K := fftshift (fftfreq n pix)

/-- The number of pixels along an axis, lines 172-173, 178; a number that makes the lines 185-193
fail is reported as that error (negative: `fftfreq`; zero or one: `_axis_edges`). -/
def pixelCount (side pix : K) : Except Err ℕ :=
  if pix = 0 then .error .valueError
  else
    let n := ⌈round1 (side / pix)⌉
    if n < 0 then .error .valueError
    else if n ≤ 1 then .error .indexError
    else .ok n.toNat

/-- Lines 135-139: a side length of length 1 is used for every axis (as a float array). -/
def spreadSide (side : NArr K) (d : ℕ) : Except Err (NArr K) :=
  let s := match side.vals with
    | [x] => { isInt := false, vals := List.replicate d x }
    | _ => side
  if s.vals.length = d then .ok s else .error .valueError

/-- Lines 142-147. -/
def spreadPix (pix : NArr K) (d : ℕ) : Except Err (NArr K) :=
  if pix.vals.length = d then .ok pix
  else match pix.vals with
    | [x] => .ok { isInt := false, vals := List.replicate d x }
    | _ => .error .valueError

/-- Lines 150-168: units of the axes (or of the properties): `None`, one for all, or one for each. -/
def spreadUnits (u : Option (List (Option String))) (d : ℕ) : Except Err (List (Option String)) :=
  match u with
  | none => .ok (List.replicate d none)
  | some [x] => .ok (List.replicate d x)
  | some l => if l.length = d then .ok l else .error .valueError

/-- `Grid.__init__`, lines 126-198. -/
def Grid.new (nProps : ℕ) (center side pix : NArr K)
    (axunits gridunits : Option (List (Option String)) := none) : Except Err (Grid K V) :=
  let d := center.vals.length
  match spreadSide side d with
  | .error e => .error e
  | .ok side =>
    match spreadPix pix d with
    | .error e => .error e
    | .ok pix =>
      match spreadUnits axunits d with
      | .error e => .error e
      | .ok au =>
        match spreadUnits gridunits nProps with
        | .error e => .error e
        | .ok gu =>
          match mapE (fun p => pixelCount p.1 p.2) (side.vals.zip pix.vals) with    -- lines 172-178
          | .error e => .error e
          | .ok ns =>
            let side : NArr K :=                                                    -- lines 174-175
              if List.zipWith (· / ·) side.vals pix.vals = ns.map (fun n : ℕ => (n : K)) then side
              else { isInt := false, vals := List.zipWith (fun p (n : ℕ) => p * n) pix.vals ns }
            let geo := ns.zip (pix.vals.zip (side.vals.zip center.vals))
            let axes := geo.map (fun q => edgesOf q.1 q.2.1 q.2.2.1 q.2.2.2)        -- lines 185-190
            let fcenters := (ns.zip pix.vals).map (fun q => fcentersOf q.1 q.2)     -- line 192
            match mapE axisEdges fcenters with                                      -- line 193
            | .error e => .error e
            | .ok faxes =>
              .ok { nProps := nProps, nObj := 0, center := center, side := side, pix := pix,
                    nPix := ns, axunits := au,
                    faxunits := au.map (fun u => u.map (· ++ "^-1")),
                    gridunits := gu, axes := axes,
                    centers := List.zipWith centersOf axes pix.vals,
                    faxes := faxes, fcenters := fcenters,
                    fourier := List.replicate d false, isPow := false, grid := none }

/-- `init_grid`, lines 216-229. -/
def Grid.init [Zero V] (g : Grid K V) : Grid K V :=
  { g with grid := some (zeros (g.nPix ++ [g.nProps])), nObj := 0 }

/-! ## `pad` (lines 232-342) -/

/-- The new description of one axis computed by `pad`, lines 309-321. -/
structure AxisNew (K : Type) where
  n : ℕ
  side : K
  pix : K
  edges : List K
  centers : List K
  fedges : List K
  fcenters : List K

/-- Lines 309-321 for axis `i`, changed by `p` cells on both sides; `side` and `pix` are stored into
arrays of the dtype of the old ones before they are used. -/
def padAxis (g : Grid K V) (i : ℕ) (p : ℤ) : Except Err (AxisNew K) :=
  match g.nPix[i]?, g.side.vals[i]?, g.pix.vals[i]?, g.center.vals[i]?, g.fourier[i]? with
  | some n, some side, some pix, some center, some fourier =>
    let m : ℤ := n + 2 * p                                                     -- line 309
    if m < 0 then .error .valueError
    else
      let k := m.toNat
      let side' := if fourier then side                                        -- lines 310-315
        else if g.side.isInt then trunc ((k : K) * pix) else (k : K) * pix
      let pix' := if fourier then
          (if g.pix.isInt then trunc (side / (k : K)) else side / (k : K))
        else pix
      let edges := edgesOf k pix' side' center                                 -- line 317
      let fc := fcentersOf k pix'                                              -- line 320
      match axisEdges fc with                                                  -- line 321
      | .error e => .error e
      | .ok fe =>
        .ok { n := k, side := side', pix := pix', edges := edges,
              centers := centersOf edges pix', fedges := fe, fcenters := fc }
  | _, _, _, _, _ => .error .indexError

/-- `pad[ax[i]]` on line 309. -/
def padWrong (ax : List ℕ) (pad : List ℤ) (i : ℕ) : Except Err ℤ :=
  match ax[i]? with
  | none => .error .indexError
  | some a =>
    match pad[a]? with
    | none => .error .indexError
    | some p => .ok p

/-- Replace the description of axis `i` by the new one. -/
def Grid.setAxis (g : Grid K V) (i : ℕ) (a : AxisNew K) : Grid K V :=
  { g with
    nPix := g.nPix.set i a.n, side := { g.side with vals := g.side.vals.set i a.side },
    pix := { g.pix with vals := g.pix.vals.set i a.pix },
    axes := g.axes.set i a.edges, centers := g.centers.set i a.centers,
    faxes := g.faxes.set i a.fedges, fcenters := g.fcenters.set i a.fcenters }

/-- The loop over the axes, lines 289-321: `none` if the axis does not change, otherwise its new
description. -/
def padPlan (g : Grid K V) (ax : List ℕ) (pad : List ℤ) : Except Err (List (Option (AxisNew K))) :=
  mapE (fun i =>
    if i ∉ ax then .ok none                                                    -- lines 290-292
    else if pad.getD (ax.idxOf i) 0 = 0 then .ok none                          -- lines 295-299
    else
      match padWrong ax pad i with
      | .error e => .error e
      | .ok p =>
        match padAxis g i p with
        | .error e => .error e
        | .ok a => .ok (some a)) (List.range g.dim)

/-- The cells added to (`sign = 1`) or removed from (`sign = -1`) each axis of the array, lines
289-307 and 324-325. -/
def padCells (g : Grid K V) (ax : List ℕ) (pad : List ℤ) (sign : ℤ) : List ℕ :=
  (List.range g.dim).map (fun i =>
    if i ∉ ax then 0 else (sign * pad.getD (ax.idxOf i) 0).toNat) ++ [0]

/-- Apply the plan. -/
def Grid.setAxes (g : Grid K V) (plan : List (Option (AxisNew K))) : Grid K V :=
  plan.zipIdx.foldl (fun h p => match p.1 with
    | none => h
    | some a => h.setAxis p.2 a) g

/-- Lines 267-271: one amount for several axes is used for each of them (`k` axes). -/
def padSpread (pad : List ℤ) (k : ℕ) : Except Err (List ℤ) :=
  if pad.length = 1 ∧ 1 < k then .ok (List.replicate k (pad.getD 0 0))
  else if pad.length = k then .ok pad else .error .valueError

/-- `pad`, lines 232-342. -/
def Grid.padBy (g : Grid K V) (ax : List ℕ) (pad0 : List ℤ) (val : V) :
    Grid K V × Except Err Unit :=
  if ∃ a ∈ ax, g.dim ≤ a then (g, .error .valueError)                          -- lines 264-265
  else
    match padSpread pad0 ax.length with
    | .error e => (g, .error e)
    | .ok pad =>
      if ∃ q ∈ ax.zip pad, q.2 < 0 ∧ (g.nPix.getD q.1 0 : ℤ) ≤ -2 * q.2 then   -- lines 274-276
        (g, .error .valueError)
      else
        match padPlan g ax pad with
        | .error e => (g, .error e)
        | .ok plan =>
          let g' := { g.setAxes plan with                                      -- lines 328-338
            grid := g.grid.map (fun a : Arr V =>
              (a.pad (padCells g ax pad 1) val).unpad (padCells g ax pad (-1))) }
          match g'.grid with
          | none => (g', .ok ())
          | some a =>
            if a.shape.dropLast = g'.nPix then (g', .ok ())                    -- lines 340-342
            else (g', .error .valueError)

/-! ## `crop` (lines 346-397) -/

/-- `crop`, lines 346-397. -/
def Grid.crop (g : Grid K V) (ax : ℕ) (min max : Option K) : Grid K V × Except Err Unit :=
  match g.fourier[ax]?, g.axes[ax]?, g.centers[ax]?, g.pix.vals[ax]? with
  | some fourier, some edges, some cs, some pix =>
    if fourier then (g, .error .valueError)                                    -- lines 373-374
    else
      match min.or edges.min?, max.or edges.max? with                          -- lines 377-380
      | some lo, some hi =>
        if hi ≤ lo then (g, .error .valueError)                                -- lines 381-382
        else if (∀ c ∈ cs, c > hi) ∨ (∀ c ∈ cs, c < lo) then (g, .error .valueError)
        else
          let inside := fun c : K => decide (lo ≤ c) && decide (c ≤ hi)
          let inds := (List.range cs.length).filter (fun j => inside (cs.getD j 0))
          let g1 := { g with grid := g.grid.map (fun a : Arr V => a.take inds ax) }    -- lines 388-389
          let cs' := cs.filter inside
          let g2 := { g1 with centers := g1.centers.set ax cs' }               -- line 391
          match cs'.max? with
          | none => (g2, .error .valueError)                                   -- np.max of nothing
          | some top =>
            let edges' := cs'.map (· - pix / 2) ++ [top + pix / 2]             -- line 392
            let n := cs'.length
            let g3 := { g2 with axes := g2.axes.set ax edges', nPix := g2.nPix.set ax n }
            match edges'.max?, edges'.min? with
            | some mx, some mn =>
              let g4 := { g3 with side := g3.side.put ax (mx - mn) }           -- line 394
              let g5 := { g4 with                                              -- line 395
                center := g4.center.put ax (mn + g4.side.vals.getD ax 0 / 2) }
              let fc := fcentersOf n pix
              let g6 := { g5 with fcenters := g5.fcenters.set ax fc }          -- line 396
              match axisEdges fc with                                          -- line 397
              | .error e => (g6, .error e)
              | .ok fe => ({ g6 with faxes := g6.faxes.set ax fe }, .ok ())
            | _, _ => (g3, .error .valueError)
      | _, _ => (g, .error .valueError)
  | _, _, _, _ => (g, .error .valueError)                                      -- lines 369-370

/-! ## `scale_axis` (lines 401-467) -/

/-- The body of the loop, lines 435-467, for axis `i`; `factor[i]` (not the factor given for
this entry of `ax`).  The units are left alone (`axunits='same'`).  With `scalecenter=False` lines
463-464 use an attribute that does not exist. -/
def scaleOne (g : Grid K V) (factor : List K) (scaleCenter : Bool) (i : ℕ) :
    Grid K V × Except Err Unit :=
  match factor[i]? with
  | none => (g, .error .indexError)
  | some f =>
    let g1 := if scaleCenter then
        { g with center := g.center.put i (g.center.vals.getD i 0 * f) } else g
    let g2 := { g1 with
      side := g1.side.put i (g1.side.vals.getD i 0 * f),
      pix := g1.pix.put i (g1.pix.vals.getD i 0 * f) }
    if scaleCenter then
      ({ g2 with
        axes := g2.axes.modify i (fun l => l.map (· * f)),
        centers := g2.centers.modify i (fun l => l.map (· * f)),
        faxes := g2.faxes.modify i (fun l => l.map (· / f)),
        fcenters := g2.fcenters.modify i (fun l => l.map (· / f)) }, .ok ())
    else (g2, .error .attributeError)

/-- The loop. -/
def scaleLoop (factor : List K) (scaleCenter : Bool) :
    List ℕ → Grid K V → Grid K V × Except Err Unit
  | [], g => (g, .ok ())
  | i :: rest, g =>
    match scaleOne g factor scaleCenter i with
    | (g', .error e) => (g', .error e)
    | (g', .ok ()) => scaleLoop factor scaleCenter rest g'

/-- Lines 429-433. -/
def scaleSpread (factor : List K) (k : ℕ) : Except Err (List K) :=
  if factor.length = 1 then .ok (List.replicate k (factor.getD 0 0))
  else if factor.length = k then .ok factor else .error .valueError

/-- `scale_axis` with `axunits='same'`, lines 401-467. -/
def Grid.scaleAxis (g : Grid K V) (ax : List ℕ) (factor : List K) (scaleCenter : Bool := true) :
    Grid K V × Except Err Unit :=
  if ∃ a ∈ ax, g.dim ≤ a then (g, .error .valueError)
  else
    match scaleSpread factor ax.length with
    | .error e => (g, .error e)
    | .ok factor => scaleLoop factor scaleCenter ax g

/-! ## Properties and copies (lines 201-213, 470-579, 943-985) -/

/-- `_check_property_input`, lines 201-213. -/
def Grid.checkProps (g : Grid K V) (properties : Option (List ℕ)) : Except Err (List ℕ) :=
  match properties with
  | none => .ok (List.range g.nProps)
  | some l => if ∀ p ∈ l, p < g.nProps then .ok l else .error .valueError

/-- `copy_axes`, lines 470-486. -/
def Grid.copyAxes (g : Grid K V) (n : ℕ) : Except Err (Grid K V) :=
  Grid.new n g.center g.side g.pix (some g.axunits) (some g.gridunits)

/-- `copy`, lines 489-512. -/
def Grid.copy (g : Grid K V) (properties : Option (List ℕ)) : Except Err (Grid K V) :=
  match g.checkProps properties with
  | .error e => .error e
  | .ok ps =>
    match g.copyAxes ps.length with
    | .error e => .error e
    | .ok c =>
      .ok { c with
        grid := g.grid.map (fun a : Arr V => a.selectLast ps),
        nObj := if g.grid.isSome then g.nObj else c.nObj,
        fourier := g.fourier, isPow := g.isPow }

/-- The argument of `add_new_prop`: an array with or without the property axis. -/
def newPropValue (g : Grid K V) (v : Arr V) : Except Err (Arr V) :=
  if v.shape.length = g.dim + 1 then                                           -- lines 561-563
    (if v.shape.dropLast = g.nPix then .ok v else .error .valueError)
  else if v.shape.length = g.dim then                                          -- lines 564-567
    (if v.shape = g.nPix then .ok ⟨v.shape ++ [1], fun i => v.get i.dropLast⟩
     else .error .valueError)
  else .error .valueError

/-- `add_new_prop`, lines 555-579 (`none`: no value given). -/
def Grid.addNewProp [Zero V] (g : Grid K V) (value : Option (Arr V)) :
    Grid K V × Except Err Unit :=
  match g.grid with
  | some a =>
    match (match value with
      | none => .ok (zeros (g.nPix ++ [1]))
      | some v => newPropValue g v : Except Err (Arr V)) with
    | .error e => (g, .error e)
    | .ok v =>
      ({ g with grid := some (a.concatLast v), nProps := g.nProps + v.shape.getLastD 0 }, .ok ())
  | none =>
    match value with
    | some _ => (g, .error .valueError)                                        -- line 577
    | none => ({ g with nProps := g.nProps + 1 }, .ok ())

/-- `np.expand_dims(np.sum(a[..., tuple(props)], axis=-1), -1)`, line 974. -/
def sumLast [AddCommMonoid V] (a : Arr V) (props : List ℕ) : Arr V :=
  ⟨a.shape.dropLast ++ [1], fun i => (props.map (fun p => a.get (i.dropLast ++ [p]))).sum⟩

/-- `sum_properties(in_place=True)`, lines 964-978. -/
def Grid.sumInPlace [AddCommMonoid V] (g : Grid K V) (properties : Option (List ℕ)) :
    Grid K V × Except Err Unit :=
  match g.grid with
  | none => (g, .error .valueError)
  | some a =>
    match g.checkProps properties with
    | .error e => (g, .error e)
    | .ok ps => g.addNewProp (some (sumLast a ps))

/-- `sum_properties(in_place=False)`, lines 964-974 and 980-985. -/
def Grid.sumNew [AddCommMonoid V] (g : Grid K V) (properties : Option (List ℕ)) :
    Except Err (Grid K V) :=
  match g.grid with
  | none => .error .valueError
  | some a =>
    match g.checkProps properties with
    | .error e => .error e
    | .ok ps =>
      match g.copyAxes 1 with
      | .error e => .error e
      | .ok c => .ok { c.init with grid := some (sumLast a ps) }

/-! ## `save` and `LoadGrid` (lines 515-552, 2101-2125) -/

/-- The contents of a saved file, lines 538-550. -/
structure Saved (K V : Type) where
  nProps : ℕ
  center : NArr K
  side : NArr K
  pix : NArr K
  axunits : List (Option String)
  gridunits : List (Option String)
  nObj : ℕ
  fourier : List Bool
  isPow : Bool
  grid : Option (Arr V)

/-- The files: path to contents. -/
abbrev Files (K V : Type) := PyDict String (Saved K V)

/-- The file `np.savez` writes to: it adds `.npz` if the name does not end with it. -/
def npzPath (path : String) : String := if path.endsWith ".npz" then path else path ++ ".npz"

/-- What is written. -/
def Grid.toSaved (g : Grid K V) : Saved K V :=
  { nProps := g.nProps, center := g.center, side := g.side, pix := g.pix, axunits := g.axunits,
    gridunits := g.gridunits, nObj := g.nObj, fourier := g.fourier, isPow := g.isPow,
    grid := g.grid }

/-- `save`, lines 515-552. -/
def Grid.save (g : Grid K V) (path : String) (overwrite : Bool) (fs : Files K V) :
    Files K V × Except Err Unit :=
  if fs.has path && !overwrite then (fs, .error .valueError)                   -- lines 535-536
  else (fs.set (npzPath path) g.toSaved, .ok ())                               -- line 552

/-- `LoadGrid`, lines 2111-2125. -/
def load (fs : Files K V) (path : String) : Except Err (Grid K V) :=
  match fs.get? path with
  | none => .error .fileNotFound
  | some s =>
    match (Grid.new s.nProps s.center s.side s.pix (some s.axunits) (some s.gridunits) :
        Except Err (Grid K V)) with
    | .error e => .error e
    | .ok g =>
      .ok { g with
        grid := s.grid, nObj := if s.grid.isSome then s.nObj else g.nObj,
        fourier := s.fourier, isPow := s.isPow }

end

end Verif.Map
