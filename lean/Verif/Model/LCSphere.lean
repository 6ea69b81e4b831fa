import Verif.Model.LCSet

/-!
# Model of `SphereMaker` (`simim/lightcone/lcmaker.py:849-1146`): the objects of a light sphere

Simplifications as in `Verif.Model.LightCone`; the functions `np.arccos`, `np.arctan2` and the
number `np.pi` are parameters.  A distance of zero gives NaN for the two angles, here `0`-division
passed on to `arccos`; the theorems on angles exclude it.
-/

namespace Verif.LC

open Verif.Sim (Err SnapMeta sortByZ getMassIndex)

/-- The argument `mode`, `lcmaker.py:897`. -/
inductive Shape where
  | sphere | hemisphere | quarter | eighth
  /-- Any other value. -/
  | other
  deriving DecidableEq

/-- The settings of a `SphereMaker`: those of a lightcone maker that are not about the field of
view, and the shape (`lcmaker.py:896-908`). -/
structure SphereSettings (K : Type) extends Settings K where
  shape : Shape
  arccos : K → K
  arctan2 : K → K → K
  pi : K

variable {K : Type} [Field K] [LinearOrder K] [FloorRing K]

/-- The largest accepted radius, `lcmaker.py:910-913`: `box_edge_no_h` is `box_edge/h`
(`simhandler.py:237-238`). -/
def SphereSettings.limit (st : SphereSettings K) : K :=
  match st.shape with
  | .eighth => st.box / st.h
  | _ => st.box / st.h / 2

/-- The checks of `SphereMaker.__init__`, `lcmaker.py:896-915`; `assignD` is `self.assign_D`,
comoving distances in Mpc/h (`lcmaker.py:105-107`). -/
def sphereCheck (st : SphereSettings K) (assignD : K → K) : Except Err Unit :=
  if st.shape = .other then .error .valueError                         -- lines 897-898
  else if st.zhi < st.zlo then .error .valueError                      -- lines 904-905
  else if st.limit < assignD st.zhi then .error .valueError            -- lines 914-915
  else .ok ()

/-- The position of a halo relative to the observer, `lcmaker.py:1033-1039`. -/
def spherePos (st : SphereSettings K) (sky : Sky K) (q : Vec K) : Vec K := fun a =>
  let p := pymod (q a * sky.flips a) st.box
  match st.shape with
  | .eighth => pymod (p - sky.start a + st.box) st.box
  | .other => p
  | _ => pymod (p - sky.start a + st.box / 2) st.box - st.box / 2

/-- The region of a shape, `lcmaker.py:1045-1052`. -/
def inShape (s : Shape) (v : Vec K) : Bool :=
  match s with
  | .sphere => true
  | .eighth => true
  | .hemisphere => decide (0 < v 2)
  | .quarter => decide (0 < v 2) && decide (0 < v 1)
  | .other => false

/-- `start_distance`, `lcmaker.py:1011`. -/
def sphereLo (st : SphereSettings K) (s : SnapMeta K) : K := max s.dmin st.dzmin

/-- `end_distance`, `lcmaker.py:1012`. -/
def sphereHi (st : SphereSettings K) (s : SnapMeta K) : K := min s.dmax st.dzmax

/-- The candidates, `lcmaker.py:1033-1042`. -/
def sphereCands (st : SphereSettings K) (sky : Sky K) (halos : List (Halo K)) : List (Cand K) :=
  halos.zipIdx.map (fun q =>
    let v := spherePos st sky q.1.pos
    ⟨v, q.2, st.root (sumSq v)⟩)

/-- The selected halos in order of distance, `lcmaker.py:1044-1062`. -/
def sphereSel (st : SphereSettings K) (sky : Sky K) (s : SnapMeta K) (halos : List (Halo K)) :
    List (Cand K) :=
  ((sphereCands st sky halos).filter (fun c =>
      decide (sphereLo st s ^ 2 ≤ sumSq c.r) && decide (sumSq c.r < sphereHi st s ^ 2) &&
        inShape st.shape c.r)).insertionSort (fun a b => a.d ≤ b.d)

/-- The row of a selected halo, `lcmaker.py:1065-1089`. -/
def sphereRow (st : SphereSettings K) (snap : ℕ) (halos : List (Halo K)) (c : Cand K) : Row K :=
  let theta := st.arccos (c.r 2 / c.d)
  let phi := st.arctan2 (c.r 1) (c.r 0)
  { posX := c.r 0, posY := c.r 1, posZ := c.r 2,
    ra := pymod phi (2 * st.pi), dec := st.pi / 2 - theta, redshift := st.assignZ c.d,
    mass := ((halos.map (·.mass))[c.j % halos.length]?).getD 0,
    snap := snap, index := c.j % halos.length }

/-- The rows of one snapshot, `lcmaker.py:1030-1089`. -/
def sphereRows (st : SphereSettings K) (sky : Sky K) (s : SnapMeta K) (halos : List (Halo K)) :
    List (Row K) :=
  (sphereSel st sky s halos).map (sphereRow st s.index halos)

/-- The loop over snapshots for one light sphere, `lcmaker.py:1001-1134`. -/
def sphereLoop (st : SphereSettings K) (sky : Sky K) (data : ℕ → SnapData K) :
    List (SnapMeta K) → Cone K → Except Err (Cone K)
  | [], c => .ok c
  | s :: rest, c =>
    match loaded st.toSettings (data s.index) with                     -- lines 1014-1028
    | .error e => .error e
    | .ok halos => sphereLoop st sky data rest (c.append (sphereRows st sky s halos))

/-- `build_lightcones`, `lcmaker.py:928-1146`, for one of the light spheres. -/
def buildSphere (st : SphereSettings K) (sky : Sky K) (metas : List (SnapMeta K))
    (data : ℕ → SnapData K) (bins : List K) : Except Err (Cone K) :=
  sphereLoop st sky data (snapsUsed st.toSettings metas) ⟨[], bins.map (fun z => (z, 0))⟩

/-- What `add_pos_properties` writes to light spheres, `lcmaker.py:317`: their files have no
attribute `'line of sight transformation matrix'` (`lcmaker.py:972-996`). -/
def sphereVectorAdding : Adding K where
  names := fun key => [key ++ "_x", key ++ "_y", key ++ "_z"]
  fill := fun _ _ _ _ => .error .keyError

/-- The steps of `add_pos_properties` for light spheres, `lcmaker.py:227-341`. -/
def spherePosPlan (st : SphereSettings K) (metas : List (SnapMeta K)) (known : List String)
    (n : Option ℕ) (keys : List String) (d : Folder K) : List (Step K) :=
  match d 0 with
  | none => [.fail .fileNotFound]
  | some f0 =>
    match f0.full with
    | none => [.fail .keyError]
    | some full =>
      let new := (keys.filter (fun k => decide (k ∉ oldPos full) &&
        decide (k ++ "_x" ∈ known))).insertionSort (· ≤ ·)                 -- lines 253-262
      match n with
      | none => [.fail .attributeError]
      | some n => addPlanG (snapsUsed st.toSettings metas) sphereVectorAdding n new d

/-- The checks of `LCMaker.__init__`, `lcmaker.py:413-435`; `modeOk` says that the mode is known and
`transverse` is the comoving transverse distance (Mpc/h) of `redshift_max`. -/
def coneCheck (st : Settings K) (modeOk : Bool) (transverse : K) : Except Err Unit :=
  if !modeOk then .error .valueError                                   -- lines 413-414
  else if 1 < st.aspect then .error .valueError                        -- lines 418-419
  else if st.zhi < st.zlo then .error .valueError                      -- lines 425-426
  else if st.box < transverse * st.angle then .error .valueError       -- lines 431-435
  else .ok ()

/-- Making a maker: `GenericLCMaker.__init__` (`lcmaker.py:65-86`), then the checks of the kind of
maker (`lcmaker.py:410-435` or `893-915`). -/
def initChecked (check : Except Err Unit) (name : String) (ow : Overwrite)
    (answers : List String) (sets : Sets K) : Sets K × InitResult :=
  match initMaker name ow answers sets with
  | (sets', .ready) =>
    match check with
    | .error e => (sets', .error e)
    | .ok () => (sets', .ready)
  | (sets', r) => (sets', r)

end Verif.LC
