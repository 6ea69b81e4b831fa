import Verif.Model.Grid
import Mathlib.Algebra.BigOperators.Group.List.Basic

/-!
# Model of `Grid` (`simim/map/gridder.py`): adding objects and sampling, lines 583-940, 988-1052

Simplifications: numbers are exact, `np.floor(..).astype('int')` is the floor; negative property
indices are not represented.
-/

namespace Verif.Map

open Verif.Sim (Err)

variable {K V : Type}

/-- An array of positions: integer or float, one- or two-dimensional; its rows. -/
structure Pos (K : Type) where
  isInt : Bool := false
  flat : Bool := false
  rows : List (List K)

/-- An array of values, one row for each object; a one-dimensional array has rows of one entry. -/
structure Vals (V : Type) where
  flat : Bool := false
  cols : ℕ
  rows : List (List V)

section
variable [Field K] [LinearOrder K] [FloorRing K]

/-- The cell of a position, lines 639-646: `floor((x - center + side/2) / pixel)` on each
axis; `none` (the object is dropped) if one of them is negative or not below the number
of pixels.  The description of the axes is a list of (centre, side, pixel size, number of pixels). -/
def locate : List (K × K × K × ℕ) → List K → Option (List ℕ)
  | [], [] => some []
  | (c, s, w, n) :: geo, x :: row =>
    let j := ⌊(x - c + s / 2) / w⌋
    if 0 ≤ j ∧ j < n then (locate geo row).map (fun r => j.toNat :: r) else none
  | _, _ => none

/-- What lines 639-646 use of the grid. -/
def Grid.geo (g : Grid K V) : List (K × K × K × ℕ) :=
  g.center.vals.zip (g.side.vals.zip (g.pix.vals.zip g.nPix))

/-- The objects that are kept, with their cells, lines 645-646 and 744-745. -/
def keep {α : Type} (geo : List (K × K × K × ℕ)) (rows : List (List K)) (vals : List α) :
    List (List ℕ × α) :=
  (rows.zip vals).filterMap (fun q => (locate geo q.1).map (fun c => (c, q.2)))

/-- The loop over the properties, lines 660-665: column `ip` of the values for property `ip`
(the only column if there is one). -/
def catLoop [Add V] [Zero V] (kept : List (List ℕ × List V)) (cols : ℕ) :
    List ℕ → Arr V → Arr V × Except Err Unit
  | [], a => (a, .ok ())
  | ip :: rest, a =>
    if cols ≠ 1 ∧ cols ≤ ip then (a, .error .indexError)
    else
      let j := if cols = 1 then 0 else ip
      catLoop kept cols rest (a.addAll (kept.map (fun q => (q.1 ++ [ip], q.2.getD j 0))))

/-- `np.ones(len(positions))` as a column, lines 628-632. -/
def ones [One V] (n : ℕ) : Vals V := { cols := 1, rows := List.replicate n [1] }

/-- `add_from_cat`, lines 583-668. -/
def Grid.addFromCat [AddCommMonoid V] [One V] (g : Grid K V) (positions : Pos K)
    (values : Option (Vals V)) (newProps : Bool) (properties : Option (List ℕ)) :
    Grid K V × Except Err Unit :=
  match g.grid with
  | none => (g, .error .valueError)                                            -- lines 606-607
  | some a =>
    if g.fourier.any id then (g, .error .valueError)                           -- lines 609-610
    else if positions.rows = [] then                                           -- lines 613-620
      if positions.flat && newProps then
        match values with
        | none => (g, .error .attributeError)
        | some v =>
          if v.flat then (g, .error .indexError)
          else g.addNewProp (some (zeros (g.nPix ++ [v.cols])))
      else (g, .ok ())
    else if positions.flat then (g, .error .indexError)                        -- line 626
    else if ∃ r ∈ positions.rows, r.length ≠ g.dim then (g, .error .valueError)
    else
      let v := values.getD (ones positions.rows.length)
      if v.rows.length ≠ positions.rows.length then (g, .error .valueError)    -- lines 635-636
      else if positions.isInt then (g, .error .typeError)                      -- lines 639-640
      else
        let kept := keep g.geo positions.rows v.rows
        if newProps then                                                       -- lines 649-653
          let b := (zeros (g.nPix ++ [v.cols])).addAll
            (kept.flatMap (fun q => (List.range v.cols).map (fun j : ℕ => (q.1 ++ [j], q.2.getD j 0))))
          match g.addNewProp (some b) with
          | (g', .error e) => (g', .error e)
          | (g', .ok ()) => ({ g' with nObj := g'.nObj + kept.length }, .ok ())
        else
          match g.checkProps properties with                                   -- lines 656-658
          | .error e => (g, .error e)
          | .ok ps =>
            if v.cols ≠ ps.length ∧ v.cols ≠ 1 then (g, .error .valueError)
            else
              match catLoop kept v.cols ps a with
              | (a', .error e) => ({ g with grid := some a' }, .error e)
              | (a', .ok ()) =>
                ({ g with grid := some a', nObj := g.nObj + kept.length }, .ok ())  -- line 668

/-- The additions of one property, lines 751-761 and 765-768: the entry number `m` of the values of
an object is added to the cell with `m` on axis `ax` and the cell of the object on the other axes. -/
def specTerms (kept : List (List ℕ × List V)) (ax p : ℕ) : List (List ℕ × V) :=
  kept.flatMap (fun q => q.2.zipIdx.map (fun r : V × ℕ => (q.1.insertIdx ax r.2 ++ [p], r.1)))

/-- `n_dimensions + ax` for negative `ax`, checked; lines 706-709, 869-872. -/
def axisOf (d : ℕ) (ax : ℤ) : Except Err ℕ :=
  let a := if ax < 0 then d + ax else ax
  if a < 0 ∨ d ≤ a then .error .valueError else .ok a.toNat

/-- `add_from_pos_plus_array`, lines 671-773.  For one-dimensional grids the index is an empty
tuple, which is not modelled (reported as an error).  Rows of `values` of different lengths are
not arrays.  Simplification: positions are two-dimensional unless empty (line 721 takes a one-dimensional
array as a single object). -/
def Grid.addFromPosPlusArray [AddCommMonoid V] (g : Grid K V) (positions : Pos K)
    (values : List (List V)) (ax : ℤ) (newProp : Bool) (properties : Option (List ℕ)) :
    Grid K V × Except Err Unit :=
  match g.grid with
  | none => (g, .error .valueError)
  | some a =>
    if g.fourier.any id then (g, .error .valueError)
    else
      match axisOf g.dim ax with
      | .error e => (g, .error e)
      | .ok ax =>
        if positions.rows = [] then                                            -- lines 712-718
          if positions.flat && newProp then g.addNewProp (some (zeros (g.nPix ++ [1])))
          else (g, .ok ())
        else if g.dim < 2 then (g, .error .valueError)
        else if ∃ r ∈ positions.rows, r.length ≠ g.dim - 1 then (g, .error .valueError)
        else if values.length ≠ positions.rows.length then (g, .error .valueError)
        else if ∃ v ∈ values, v.length ≠ g.nPix.getD ax 0 then (g, .error .valueError)
        else
          let kept := keep (g.geo.eraseIdx ax) positions.rows values           -- lines 735-745
          if newProp then                                                      -- lines 764-770
            match g.addNewProp (some ((zeros (g.nPix ++ [1])).addAll (specTerms kept ax 0))) with
            | (g', .error e) => (g', .error e)
            | (g', .ok ()) => ({ g' with nObj := g'.nObj + kept.length }, .ok ())
          else
            match g.checkProps properties with
            | .error e => (g, .error e)
            | .ok ps =>
              ({ g with
                grid := some (ps.foldl (fun b p => b.addAll (specTerms kept ax p)) a),
                nObj := g.nObj + kept.length }, .ok ())

/-- `np.diff`. -/
def diff [Sub V] (l : List V) : List V := List.zipWith (fun b a => b - a) l.tail l

/-- The calls of the function, lines 919-924: once for all objects or once for each of them. -/
def evaluate {A : Type} (spec : List K → List A → Except Err (List (List V))) (axis : List K)
    (loop : Bool) (args : List A) : Except Err (List (List V)) :=
  if loop then
    match mapE (fun a => spec axis [a]) args with
    | .error e => .error e
    | .ok l => .ok (l.map List.flatten)
  else spec axis args

/-- The spectra of one chunk, lines 919-929: differenced if the function is cumulative. -/
def spectra [Sub V] {A : Type} (spec : List K → List A → Except Err (List (List V))) (axis : List K)
    (loop cumulative : Bool) (args : List A) : Except Err (List (List V)) :=
  match evaluate spec axis loop args with
  | .error e => .error e
  | .ok l => .ok (if cumulative then l.map diff else l)

/-- The loop over the chunks, lines 914-940. -/
def specLoop [AddCommGroup V] {A : Type} (spec : List K → List A → Except Err (List (List V)))
    (axis : List K) (loop cumulative : Bool) (ax n : ℕ) :
    List (List (List K × A)) → Bool → Option (List ℕ) → Grid K V → Grid K V × Except Err Unit
  | [], _, _, g => (g, .ok ())
  | chunk :: rest, newProp, properties, g =>
    match spectra spec axis loop cumulative (chunk.map (·.2)) with
    | .error e => (g, .error e)
    | .ok values =>
      if ∃ v ∈ values, v.length ≠ n then (g, .error .valueError)               -- lines 932-933
      else if values.length ≠ chunk.length then (g, .error .valueError)        -- lines 934-935
      else
        match g.addFromPosPlusArray { rows := chunk.map (·.1) } values ax newProp properties with
        | (g', .error e) => (g', .error e)
        | (g', .ok ()) =>
          if newProp then
            specLoop spec axis loop cumulative ax n rest false (some [g'.nProps - 1]) g'
          else specLoop spec axis loop cumulative ax n rest false properties g'

/-- `l[0:k], l[k:2k], …`. -/
def chunks {α : Type} (k : ℕ) (l : List α) : List (List α) :=
  if _h : 0 < k ∧ l ≠ [] then l.take k :: chunks k (l.drop k) else []
termination_by l.length
decreasing_by
  have := List.length_pos_iff.2 _h.2
  simp only [List.length_drop]
  omega

/-- `add_from_spec_func`, lines 776-940; the arguments of the function are given with the
positions.  Simplification: positions are two-dimensional unless empty (line 884). -/
def Grid.addFromSpecFunc [AddCommGroup V] {A : Type} (g : Grid K V) (positions : Pos K)
    (args : List A) (spec : List K → List A → Except Err (List (List V))) (ax : ℤ)
    (cumulative loop careful newProp : Bool) (properties : Option (List ℕ)) :
    Grid K V × Except Err Unit :=
  match g.grid with
  | none => (g, .error .valueError)
  | some _ =>
    if g.fourier.any id then (g, .error .valueError)
    else
      match axisOf g.dim ax with
      | .error e => (g, .error e)
      | .ok ax =>
        if positions.rows = [] then
          if positions.flat && newProp then (g, .error .attributeError)        -- line 879
          else (g, .ok ())
        else if ∃ r ∈ positions.rows, r.length ≠ g.dim - 1 then (g, .error .valueError)
        else if args.length ≠ positions.rows.length then (g, .error .valueError)
        else
          let size := if careful then (g.nPix.eraseIdx ax).prod else positions.rows.length
          let axis := if cumulative then g.axes.getD ax [] else g.centers.getD ax []
          specLoop spec axis loop cumulative ax (g.nPix.getD ax 0)
            (chunks size (positions.rows.zip args)) newProp properties g

/-- `sample`, lines 988-1052; `none` is NaN. -/
def Grid.sample (g : Grid K V) (positions : Pos K) (properties : Option (List ℕ)) :
    Except Err (List (List (Option V))) :=
  match g.grid with
  | none => .error .valueError
  | some a =>
    match g.checkProps properties with                                         -- lines 1018-1023
    | .error e => .error e
    | .ok ps =>
      if positions.flat then                                                   -- lines 1028-1029
        (if positions.rows = [] then .error .valueError else .error .indexError)
      else if ∃ r ∈ positions.rows, r.length ≠ g.dim then .error .valueError
      else if positions.isInt then .error .typeError                           -- lines 1033-1034
      else
        .ok (positions.rows.map (fun r =>                                      -- lines 1039-1045
          match locate g.geo r with
          | some c => ps.map (fun p => some (a.get (c ++ [p])))
          | none => ps.map (fun _ => none)))

end

end Verif.Map
