import Mathlib.LinearAlgebra.Matrix.Notation
import Mathlib.Algebra.Order.Floor.Ring
import Mathlib.Data.List.Sort
import Verif.Model.Sim
import Verif.Model.Exc

/-!
# Model of `LCMaker` (`simim/lightcone/lcmaker.py:20-846`): the objects of a lightcone

Simplifications: numbers are exact; random numbers (start point, mirroring, line of sight) are
inputs; the square root and the interpolation `assign_z` are functions given as parameters
(`assign_z` raises beyond redshift 20.05, not modelled); `np.argsort` keeps the order of equal
distances.  The files are modelled in `Verif.Model.LCFile`.
-/

namespace Verif.LC

open Verif.Sim (Err SnapMeta sortByZ getMassIndex)
open Matrix

/-- A position. -/
abbrev Vec (K : Type) := Fin 3 → K

/-- A 3×3 matrix. -/
abbrev Mat (K : Type) := Matrix (Fin 3) (Fin 3) K

/-- The cross section of a lightcone, `lcmaker.py:413`. -/
inductive Mode where
  | circle | box
  deriving DecidableEq

/-- The settings of an `LCMaker` used to build lightcones (`lcmaker.py:88-115, 412-443`).
`angle` is in radians; `dzmin`, `dzmax` are the comoving distances of `redshift_min` and
`redshift_max` in Mpc/h (`lcmaker.py:611-614`). -/
structure Settings (K : Type) where
  box : K
  h : K
  mode : Mode
  angle : K
  aspect : K
  zlo : K
  zhi : K
  dzmin : K
  dzmax : K
  minMass : K
  copiesMax : ℕ
  root : K → K
  assignZ : K → K

/-- The random numbers of one lightcone (`lcmaker.py:578-596`) with the matrices and the buffer
coefficient computed from them. -/
structure Sky (K : Type) where
  start : Vec K
  flips : Fin 3 → ℤ
  los : Vec K
  losM : Mat K
  paM : Mat K
  bufCoef : K

/-- A halo of a snapshot's catalogue: the datasets `mass`, `pos_x`, `pos_y`, `pos_z`. -/
structure Halo (K : Type) where
  mass : K
  pos : Vec K

/-- The catalogue of one snapshot: its table of mass cuts (minimum mass, number of rows) and its
rows. -/
structure SnapData (K : Type) where
  cuts : List (K × ℕ)
  halos : List (Halo K)

/-- One object of a lightcone: the datasets of `'Lightcone Basic'` and the entry of `sim_indices`
(`lcmaker.py:785-792`). -/
structure Row (K : Type) where
  posX : K
  posY : K
  posZ : K
  ra : K
  dec : K
  redshift : K
  mass : K
  snap : ℕ
  index : ℕ

variable {K : Type} [Field K] [LinearOrder K] [FloorRing K]

/-- `x % b` for numpy floats. -/
def pymod (x b : K) : K := x - b * (⌊x / b⌋ : ℤ)

/-- `v % b` for an array. -/
def modBox (b : K) (v : Vec K) : Vec K := fun a => pymod (v a) b

/-- `x² + y² + z²`. -/
def sumSq (v : Vec K) : K := v 0 ^ 2 + v 1 ^ 2 + v 2 ^ 2

/-- One pass of the loop that copies the box along one axis, `lcmaker.py:705-708`. -/
def copyAxis (box : K) (l : List (Vec K)) (d : Fin 3) : List (Vec K) :=
  l ++ l.map (fun v => Function.update v d (v d + box))

/-- The three copies, `lcmaker.py:705-708`. -/
def tileOnce (box : K) (l : List (Vec K)) : List (Vec K) :=
  [0, 1, 2].foldl (copyAxis box) l

/-- The number of slices, `int(np.ceil(use_distance / (in_box_distance-2*buffer_distance)))`,
`lcmaker.py:694, 713`.  A zero denominator gives infinity or NaN, which `int` refuses
(`OverflowError` or `ValueError`). -/
def sliceCount (use inBox buf : K) : Except Err ℤ :=
  if inBox - 2 * buf = 0 then .error .valueError else .ok ⌈use / (inBox - 2 * buf)⌉

/-- The local variables of the loop that expands the box, `lcmaker.py:691-701`. -/
structure Tiling (K : Type) where
  positions : List (Vec K)
  box : K
  inBox : K
  iters : ℤ

/-- How often `copies_n` can be doubled, starting from 1, before it reaches `copies_max`
(`lcmaker.py:699, 704, 714`). -/
def doublings (copiesMax : ℕ) : ℕ := (List.range copiesMax).countP (fun k => decide (2 ^ k < copiesMax))

/-- The loop that expands the box, `lcmaker.py:703-719`; `left` is the number of doublings left, so
`copies_n < copies_max` is `left ≠ 0`. -/
def expand (use buf : K) : ℕ → Tiling K → Except Err (Tiling K)
  | 0, t =>
    if 25 < t.iters ∨ t.iters ≤ 0 then                                    -- line 703
      if t.iters ≤ 0 then .error .valueError                              -- lines 716-717
      else .ok t                                                          -- line 719
    else .ok t
  | left + 1, t =>
    if 25 < t.iters ∨ t.iters ≤ 0 then                                    -- line 703
      match sliceCount use (t.inBox * 2) buf with                         -- lines 710, 713
      | .error e => .error e
      | .ok n =>
        expand use buf left
          { positions := tileOnce t.box t.positions, box := t.box * 2, inBox := t.inBox * 2,
            iters := n }
    else .ok t

/-- The numbers fixed for one snapshot and lightcone, `lcmaker.py:665-667, 691`. -/
structure Span (K : Type) where
  start : K
  stop : K
  buf : K

/-- `use_distance`, `lcmaker.py:667`. -/
def Span.use (p : Span K) : K := p.stop - p.start

/-- `lcmaker.py:665-667, 691`. -/
def spanOf (st : Settings K) (sky : Sky K) (s : SnapMeta K) : Span K where
  start := max s.dmin st.dzmin
  stop := min s.dmax st.dzmax
  buf := s.tdmax * sky.bufCoef

/-- `np.amax(pointing_los[lc_ind])`. -/
def maxComp (v : Vec K) : K := max (max (v 0) (v 1)) (v 2)

/-- `lcmaker.py:691-719`: number of slices and copies of the box. -/
def tiling (st : Settings K) (sky : Sky K) (p : Span K) (halos : List (Halo K)) :
    Except Err (Tiling K) :=
  let inBox := st.box / maxComp sky.los
  match sliceCount p.use inBox p.buf with
  | .error e => .error e
  | .ok n => expand p.use p.buf (doublings st.copiesMax) ⟨halos.map (·.pos), st.box, inBox, n⟩

/-- Mirroring and shift of one position, `lcmaker.py:722-726`. -/
def shifted (sky : Sky K) (p : Span K) (box : K) (q : Vec K) : Vec K := fun a =>
  pymod (q a * sky.flips a) box - sky.start a - p.start * sky.los a + p.buf * sky.los a

/-- `iter_ind*use_distance/iters`. -/
def advance (p : Span K) (iters : ℤ) (i : ℕ) : K := i * p.use / iters

/-- A position in the coordinates of slice `i`, `lcmaker.py:731-737`. -/
def inSlice (sky : Sky K) (p : Span K) (t : Tiling K) (i : ℕ) (q : Vec K) : Vec K :=
  sky.paM *ᵥ (sky.losM *ᵥ modBox t.box (fun a =>
    shifted sky p t.box q a - advance p t.iters i * sky.los a))

/-- The position of the object with slice coordinates `r` in the lightcone, first component along
the line of sight, `lcmaker.py:740-742, 772-774`. -/
def placed (p : Span K) (t : Tiling K) (i : ℕ) (r : Vec K) : Vec K :=
  r + ![p.start + advance p t.iters i - p.buf, 0, 0]

/-- A candidate: slice coordinates, position in the list of (copied) halos, distance. -/
structure Cand (K : Type) where
  r : Vec K
  j : ℕ
  d : K

/-- All candidates of slice `i`, `lcmaker.py:731-743`. -/
def candidates (st : Settings K) (sky : Sky K) (p : Span K) (t : Tiling K) (i : ℕ) :
    List (Cand K) :=
  t.positions.zipIdx.map (fun q =>
    let r := inSlice sky p t i q.1
    ⟨r, q.2, st.root (sumSq (placed p t i r))⟩)

/-- The test of the cross section, `lcmaker.py:745-751` (with `566-569`).  A zero distance gives
NaN, for which the comparison is false. -/
def inField (st : Settings K) (c : Cand K) : Bool :=
  match st.mode with
  | .circle => decide (c.d ≠ 0 ∧ st.root (c.r 1 ^ 2 + c.r 2 ^ 2) / c.d < st.angle / 2)
  | .box => decide (c.d ≠ 0 ∧ |c.r 1 / c.d| ≤ st.angle / 2 ∧
      |c.r 2 / c.d| ≤ st.angle * st.aspect / 2)

/-- Lower limit of slice `i`, `lcmaker.py:753`. -/
def sliceMin (p : Span K) (iters : ℤ) (i : ℕ) : K := p.start + advance p iters i

/-- Upper limit of slice `i`, `lcmaker.py:754-755`. -/
def sliceMax (p : Span K) (iters : ℤ) (i : ℕ) : K :=
  min (p.start + advance p iters (i + 1)) p.stop

/-- The selected candidates in order of distance, `lcmaker.py:745-769`. -/
def selected (st : Settings K) (sky : Sky K) (p : Span K) (t : Tiling K) (i : ℕ) :
    List (Cand K) :=
  ((candidates st sky p t i).filter (fun c =>
      inField st c && (decide (c.d < sliceMax p t.iters i) && decide (sliceMin p t.iters i ≤ c.d)))
    ).insertionSort (fun a b => a.d ≤ b.d)

/-- The row of a selected candidate, `lcmaker.py:772-792`. -/
def rowOf (st : Settings K) (p : Span K) (t : Tiling K) (snap : ℕ) (halos : List (Halo K))
    (i : ℕ) (c : Cand K) : Row K :=
  let x := c.r 1
  let y := c.r 2
  { posX := x, posY := y, posZ := c.r 0 + p.start + advance p t.iters i - p.buf,
    ra := x / c.d, dec := y / c.d, redshift := st.assignZ c.d,
    mass := ((halos.map (·.mass))[c.j % halos.length]?).getD 0,
    snap := snap, index := c.j % halos.length }

/-- The rows of each slice of one snapshot, `lcmaker.py:686-792`. -/
def snapSlices (st : Settings K) (sky : Sky K) (s : SnapMeta K) (halos : List (Halo K)) :
    Except Err (List (List (Row K))) :=
  let p := spanOf st sky s
  match tiling st sky p halos with
  | .error e => .error e
  | .ok t => .ok ((List.range t.iters.toNat).map (fun i =>
      (selected st sky p t i).map (rowOf st p t s.index halos i)))

/-- `mass_index_final`, `lcmaker.py:673-678`: one more than the last row at or above the minimum
mass. -/
def finalCount (minMass : K) (l : List (Halo K)) : ℕ :=
  ((l.zipIdx.filter (fun q => decide (minMass ≤ q.1.mass))).map (fun q => q.2 + 1)).getLastD 0

/-- The halos read from a snapshot, `lcmaker.py:670-684`.  The handler is made with the default
`in_h_units=False` (`lcmaker.py:92`). -/
def loaded (st : Settings K) (d : SnapData K) : Except Err (List (Halo K)) :=
  match getMassIndex d.cuts st.h st.minMass false with
  | .error e => .error e
  | .ok m => .ok ((d.halos.take m).take (finalCount st.minMass (d.halos.take m)))

/-- The update of the redshift table by the objects of one slice, `lcmaker.py:830-834`. -/
def addIndex (tab : List (K × ℕ)) (rows : List (Row K)) : List (K × ℕ) :=
  match tab with
  | [] => []
  | e :: rest =>
    e :: rest.map (fun e => (e.1, e.2 + rows.countP (fun r => decide (r.redshift ≤ e.1))))

/-- The content of a lightcone: its rows and the table `redshift_indices`. -/
structure Cone (K : Type) where
  rows : List (Row K)
  tab : List (K × ℕ)

/-- Append the rows of one slice, `lcmaker.py:804-834`. -/
def Cone.append (c : Cone K) (rows : List (Row K)) : Cone K :=
  ⟨c.rows ++ rows, addIndex c.tab rows⟩

/-- The loop over snapshots for one lightcone, `lcmaker.py:657-834`. -/
def coneLoop (st : Settings K) (sky : Sky K) (data : ℕ → SnapData K) :
    List (SnapMeta K) → Cone K → Except Err (Cone K)
  | [], c => .ok c
  | s :: rest, c =>
    match loaded st (data s.index) with
    | .error e => .error e
    | .ok halos =>
      match snapSlices st sky s halos with
      | .error e => .error e
      | .ok slices => coneLoop st sky data rest (slices.foldl Cone.append c)

/-- The snapshots used, `lcmaker.py:437-443`. -/
def snapsUsed (st : Settings K) (metas : List (SnapMeta K)) : List (SnapMeta K) :=
  sortByZ (metas.filter (fun s => decide (st.zlo ≤ s.zmax) && decide (st.zhi ≥ s.zmin)))

/-- `build_lightcones`, `lcmaker.py:542-834`, for one of the lightcones.  `bins` are the
redshifts of the table (`lcmaker.py:600-601`).  (Without any snapshot the final loop of the code
raises `KeyError`, see `Verif.Model.LCFile`.) -/
def buildCone (st : Settings K) (sky : Sky K) (metas : List (SnapMeta K))
    (data : ℕ → SnapData K) (bins : List K) : Except Err (Cone K) :=
  coneLoop st sky data (snapsUsed st metas) ⟨[], bins.map (fun z => (z, 0))⟩

end Verif.LC
