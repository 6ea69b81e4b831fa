import Mathlib.Algebra.Order.Field.Basic
import Mathlib.Algebra.Order.Group.Abs
import Mathlib.Data.List.Sort
import Mathlib.Data.List.Dedup
import Verif.Model.Exc
import Verif.Model.RawFiles

/-!
# Model of the tables of star formation rates and stellar masses (`simim/galprops/sfr_behroozi13.py:19-102`,
`161-166`, `202-207`, `217`; `simim/galprops/__init__.py:3`, `simim/galprops/galprops_builtin.py:3`,
`simim/__init__.py:6`)

Simplifications: numbers are elements of an ordered field, without rounding; `np.power(10, ·)` is a parameter `p10`.
A table is a list of columns, one for each redshift: this is the table after `.T` in lines 46-47.  The files are either
incomplete or contain what `_make_spline_files` computes from the data that come with the package.
-/

namespace Verif.Beh

variable {K : Type} [Field K] [LinearOrder K]

/-- Exceptions. -/
inductive Err where
  | valueError
  | indexError
  | fileNotFound
  | badFile
  deriving DecidableEq

/-- A line of `behroozi13_release.dat`, `sfr_behroozi13.py:64-65`: in the file `1 + z` and logarithms. -/
structure Row (K : Type) where
  z : K
  m : K
  sfr : K
  sm : K
  deriving DecidableEq

/-- Units, lines 69-71. -/
def Row.conv (p10 : K → K) (r : Row K) : Row K := { r with z := r.z - 1, m := p10 r.m, sm := p10 r.sm }

/-- `np.unique`. -/
def unique (l : List K) : List K := l.dedup.insertionSort (· ≤ ·)

/-- `np.isclose(x, -1000.0)`. -/
def missing (x : K) : Bool := decide (|x - (-1000)| ≤ 1 / 10 ^ 8 + 1 / 10 ^ 5 * |(-1000 : K)|)

/-- The value at a mass and a redshift, lines 84-89: an array of another length than one cannot be assigned. -/
def entry (rows : List (Row K)) (f : Row K → K) (z m : K) : Except Err K :=
  match rows.filter (fun r => decide (r.m = m) && decide (r.z = z)) with
  | [r] => .ok (f r)
  | _ => .error .valueError

/-- The loops, lines 82-89. -/
def table (rows : List (Row K)) (f : Row K → K) (zs ms : List K) : Except Err (List (List K)) :=
  mapE (fun z => mapE (entry rows f z) ms) zs

/-- The values beyond the limit, lines 92-94. -/
def fill (col : List K) : Except Err (List K) :=
  match (col.filter (fun x => !missing x)).getLast? with
  | none => .error .indexError
  | some v => .ok (col.map (fun x => if missing x then v else x))

/-- The four arrays. -/
structure Tables (K : Type) where
  zs : List K
  ms : List K
  sfr : List (List K)
  sm : List (List K)
  deriving DecidableEq

/-- The arrays computed by `_make_spline_files`, lines 57-96. -/
def make (p10 : K → K) (data : List (Row K)) : Except Err (Tables K) :=
  let rows := data.map (Row.conv p10)
  let zs := unique (rows.map (·.z))
  let ms := unique (rows.map (·.m))
  match table rows (·.sfr) zs ms with
  | .error e => .error e
  | .ok a =>
    match table rows (·.sm) zs ms with
    | .error e => .error e
    | .ok b =>
      match mapE fill a with
      | .error e => .error e
      | .ok a => .ok ⟨zs, ms, a.map (fun col => col.map p10), b⟩

/-- `RectBivariateSpline(zs, ms, ·, kx=1, ky=1)`, lines 49-50: at least two values on each axis (they ascend, and the
shapes agree). -/
def splines (t : Tables K) : Except Err (Tables K) :=
  if t.zs.length < 2 ∨ t.ms.length < 2 then .error .valueError else .ok t

/-- Linear interpolation; outside of the axis the value at its end. -/
def lerp : List K → List K → K → K
  | [], _, _ => 0
  | _, [], _ => 0
  | [_], v0 :: _, _ => v0
  | _, [v0], _ => v0
  | x0 :: x1 :: xs, v0 :: v1 :: vs, x =>
    if x ≤ x0 then v0
    else if x ≤ x1 then v0 + (x - x0) / (x1 - x0) * (v1 - v0)
    else lerp (x1 :: xs) (v1 :: vs) x

/-- `RectBivariateSpline.ev(z, m)` of scipy for `kx=ky=1`: linear in both, arguments outside are moved to the end of
the axis. -/
def ev (zs ms : List K) (t : List (List K)) (z m : K) : K := lerp zs (t.map (fun col => lerp ms col m)) z

/-- `sfr(redshift, mass, scatter=False)`, lines 161-166, for one halo. -/
def sfr (t : Tables K) (z m : K) : K := ev t.zs t.ms t.sfr z m

/-- `stellarmass(redshift, mass, scatter=False)`, lines 202-207, for one halo. -/
def stellarmass (t : Tables K) (z m : K) : K := ev t.zs t.ms t.sm z m

/-! ## Files -/

open Raw (Path File Disk Step after fetch)

/-- `os.path.join(self.path, name)`. -/
def file (dir : Path) (name : String) : Path := dir ++ '/' :: name.toList

/-- Lines 98-101. -/
def saves (dir : Path) : List Step :=
  fetch (file dir "sfr.npy") ++ fetch (file dir "stellarmass.npy") ++ fetch (file dir "mass_axis.npy") ++
    fetch (file dir "redshift_axis.npy")

/-- One `np.load`. -/
def loadOne (d : Disk) (f : Path) : Except Err Unit :=
  match d f with
  | none => .error .fileNotFound
  | some .part => .error .badFile
  | some .whole => .ok ()

/-- Lines 44-50; the content of complete files is `mk`. -/
def load (dir : Path) (mk : Except Err (Tables K)) (d : Disk) : Except Err (Tables K) :=
  match loadOne d (file dir "mass_axis.npy") with
  | .error e => .error e
  | .ok _ =>
    match loadOne d (file dir "redshift_axis.npy") with
    | .error e => .error e
    | .ok _ =>
      match loadOne d (file dir "sfr.npy") with
      | .error e => .error e
      | .ok _ =>
        match loadOne d (file dir "stellarmass.npy") with
        | .error e => .error e
        | .ok _ =>
          match mk with
          | .error e => .error e
          | .ok t => splines t

/-- The steps of writing files in `behroozi13_base()`, lines 34-41; `root` is the folder for the files if `setupsimim`
was run. -/
def writes (root : Option Path) (mk : Except Err (Tables K)) (d : Disk) : List Step :=
  match root with
  | none => []
  | some dir =>
    if (d (file dir "sfr.npy")).isSome then []
    else
      match mk with
      | .error _ => []
      | .ok _ => saves dir

/-- `behroozi13_base()`, lines 32-53: `none` is an object whose `path` is `None`.  It is called when the module is
imported (line 217), and `import simim` imports the module. -/
def base (root : Option Path) (mk : Except Err (Tables K)) (d : Disk) : Except Err (Option (Tables K)) :=
  match root with
  | none => .ok none
  | some dir =>
    match (if (d (file dir "sfr.npy")).isSome then load dir mk d
      else
        match mk with
        | .error e => .error e
        | .ok _ => load dir mk (after d (saves dir))) with
    | .error e => .error e
    | .ok t => .ok (some t)

end Verif.Beh
