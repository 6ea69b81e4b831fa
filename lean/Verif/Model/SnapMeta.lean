import Mathlib.Algebra.Order.Field.Basic
import Mathlib.Data.List.Sort

/-!
# Model of `Snapshot` (`simim/siminterface/_rawsiminterface.py:14-116`), of the snapshot
# metadata built by the `download_meta` methods, and of the redshift lookup of `SimHandler`

Simplifications: the cosmology (`astropy`) is a parameter: the functions age, inverse age,
comoving distance and transverse comoving distance.  The metadata table is stored with
32-bit floats; here its entries are exact.
-/

namespace Verif.Sim

/-- Python exceptions. -/
inductive Err where
  | valueError | keyError | typeError | indexError | attributeError | fileNotFound
  deriving DecidableEq, Repr

/-- The cosmology functions used: `cosmology.age`, `z_at_value(cosmology.age, ·)`,
`cosmology.comoving_distance`, `cosmology.comoving_transverse_distance`. -/
structure Cosmo (K : Type) where
  age : K → K
  zAt : K → K
  dist : K → K
  tdist : K → K

/-- A `Snapshot` object (`_rawsiminterface.py:46-53`) with the attributes set later by
`dif_lowerz_snap` and `dif_higherz_snap` (`none` = attribute does not exist). -/
structure Snapshot (K : Type) where
  index : ℕ
  redshift : K
  zmin : Option K := none
  tend : Option K := none
  dmin : Option K := none
  tdmin : Option K := none
  zmax : Option K := none
  tstart : Option K := none
  dmax : Option K := none
  tdmax : Option K := none
  deriving DecidableEq

variable {K : Type}

/-- `dif_snap`, `_rawsiminterface.py:55-69`: redshift and age half-way between two snapshots. -/
def difSnap [Field K] (c : Cosmo K) (s other : Snapshot K) : K × K :=
  let tm := (c.age s.redshift + c.age other.redshift) / 2
  (c.zAt tm, tm)

/-- `dif_lowerz_snap`, `_rawsiminterface.py:71-92`.  `none` stands for the argument `0`. -/
def difLowerz [Field K] [LinearOrder K] (c : Cosmo K) (s : Snapshot K) :
    Option (Snapshot K) → Except Err (Snapshot K)
  | none => .ok { s with zmin := some 0, tend := some (c.age 0), dmin := some 0, tdmin := some 0 }
  | some o =>
    if s.redshift < o.redshift then .error .valueError
    else
      let (zm, tm) := difSnap c s o
      .ok { s with zmin := some zm, tend := some tm, dmin := some (c.dist zm),
                   tdmin := some (c.tdist zm) }

/-- `dif_higherz_snap`, `_rawsiminterface.py:94-115`.  `none` stands for the argument `'max'`. -/
def difHigherz [Field K] [LinearOrder K] (c : Cosmo K) (s : Snapshot K) :
    Option (Snapshot K) → Except Err (Snapshot K)
  | none => .ok { s with zmax := some s.redshift, tstart := some (c.age s.redshift),
                         dmax := some (c.dist s.redshift), tdmax := some (c.tdist s.redshift) }
  | some o =>
    if s.redshift > o.redshift then .error .valueError
    else
      let (zm, tm) := difSnap c s o
      .ok { s with zmax := some zm, tstart := some tm, dmax := some (c.dist zm),
                   tdmax := some (c.tdist zm) }

/-- The loop over consecutive snapshots, `illustris.py:464-466`
(same lines in `universemachine.py:355-357` and `uchuu.py:303-305`). -/
def chainLoop [Field K] [LinearOrder K] (c : Cosmo K) :
    List (Snapshot K) → Except Err (List (Snapshot K))
  | a :: b :: rest =>
    match difLowerz c a (some b) with
    | .error e => .error e
    | .ok a' =>
      match difHigherz c b (some a') with
      | .error e => .error e
      | .ok b' =>
        match chainLoop c (b' :: rest) with
        | .error e => .error e
        | .ok r => .ok (a' :: r)
  | l => .ok l
termination_by l => l.length

/-- `classes[-1].dif_lowerz_snap(0)`, `illustris.py:463`. -/
def closeLast [Field K] [LinearOrder K] (c : Cosmo K) :
    List (Snapshot K) → Except Err (List (Snapshot K))
  | [] => .error .indexError
  | [a] =>
    match difLowerz c a none with
    | .error e => .error e
    | .ok a' => .ok [a']
  | a :: b :: rest =>
    match closeLast c (b :: rest) with
    | .error e => .error e
    | .ok r => .ok (a :: r)

/-- The block `illustris.py:462-466`, `universemachine.py:353-357`. -/
def chain [Field K] [LinearOrder K] (c : Cosmo K) :
    List (Snapshot K) → Except Err (List (Snapshot K))
  | [] => .error .indexError
  | a :: rest =>
    match difHigherz c a none with
    | .error e => .error e
    | .ok a' =>
      match closeLast c (a' :: rest) with
      | .error e => .error e
      | .ok l => chainLoop c l

/-- One row of the metadata table `snap_meta` (`illustris.py:468-473`). -/
structure SnapMeta (K : Type) where
  index : ℕ
  redshift : K
  zmin : K
  zmax : K
  tstart : K
  tend : K
  dmin : K
  dmax : K
  tdmin : K
  tdmax : K
  deriving DecidableEq

/-- One row of the table, `illustris.py:478-487`; a missing attribute is an `AttributeError`;
distances are multiplied by `h`. -/
def metaRow [Field K] (h : K) (s : Snapshot K) : Except Err (SnapMeta K) :=
  match s.zmin, s.zmax, s.tstart, s.tend, s.dmin, s.dmax, s.tdmin, s.tdmax with
  | some zmin, some zmax, some tstart, some tend, some dmin, some dmax, some tdmin, some tdmax =>
    .ok { index := s.index, redshift := s.redshift, zmin := zmin, zmax := zmax,
          tstart := tstart, tend := tend, dmin := dmin * h, dmax := dmax * h,
          tdmin := tdmin * h, tdmax := tdmax * h }
  | _, _, _, _, _, _, _, _ => .error .attributeError

/-- The loop filling the table, `illustris.py:474-487`. -/
def metaTable [Field K] (h : K) : List (Snapshot K) → Except Err (List (SnapMeta K))
  | [] => .ok []
  | s :: rest =>
    match metaRow h s with
    | .error e => .error e
    | .ok r =>
      match metaTable h rest with
      | .error e => .error e
      | .ok rs => .ok (r :: rs)

/-- Snapshots to metadata: `illustris.py:462-488`, `universemachine.py:353-379`, and
`uchuu.py:301-327`. -/
def buildMeta [Field K] [LinearOrder K] (c : Cosmo K) (h : K) (l : List (Snapshot K)) :
    Except Err (List (SnapMeta K)) :=
  match chain c l with
  | .error e => .error e
  | .ok l' => metaTable h l'

/-- `[xs[i] for i in inds]`; an index out of range raises `IndexError`. -/
def pick {α : Type} (xs : List α) : List ℕ → Except Err (List α)
  | [] => .ok []
  | i :: is =>
    match xs[i]? with
    | none => .error .indexError
    | some x =>
      match pick xs is with
      | .error e => .error e
      | .ok r => .ok (x :: r)

/-- Insert into a list of indices sorted by key (stable). -/
def argInsert {α : Type} [LinearOrder α] (key : ℕ → α) (i : ℕ) : List ℕ → List ℕ
  | [] => [i]
  | j :: rest => if key i < key j then i :: j :: rest else j :: argInsert key i rest

/-- `np.argsort` of `n` keys.  numpy's default sort is not stable; the callers below have distinct
keys, for which all sorting methods agree. -/
def argsort {α : Type} [LinearOrder α] (key : ℕ → α) (n : ℕ) : List ℕ :=
  (List.range n).foldl (fun acc i => argInsert key i acc) []

/-- The snapshots of `IllustrisCatalogs.download_meta`, `illustris.py:452-460`: `raw` is the
server's list of (number, redshift) pairs, `snaps` the snapshots requested.  The list
of objects is put in order of number on line 457, and then indexed again with the same
`argsort` on lines 459-460 (`numbers` itself is not reordered). -/
def illustrisClasses (raw : List (ℕ × K)) (snaps : List ℕ) : Except Err (List (Snapshot K)) :=
  let classes := raw.map (fun p => ({ index := p.1, redshift := p.2 } : Snapshot K))  -- 455
  let numbers := raw.map (·.1)                                                        -- 456
  let order := argsort (fun i => numbers.getD i 0) numbers.length
  match pick classes order with                                                       -- 457
  | .error e => .error e
  | .ok classes1 =>
    pick classes1 (order.filter (fun i => decide (numbers.getD i 0 ∈ snaps)))         -- 459-460

/-- `IllustrisCatalogs.download_meta` from the server's snapshot list to the metadata table,
`illustris.py:450-488`. -/
def illustrisMeta [Field K] [LinearOrder K] (c : Cosmo K) (h : K) (raw : List (ℕ × K))
    (snaps : List ℕ) : Except Err (List (SnapMeta K)) :=
  match illustrisClasses raw snaps with
  | .error e => .error e
  | .ok l => buildMeta c h l

/-- The snapshots of `UniversemachineCatalogs.download_meta`, `universemachine.py:338-351`: `files`
are the scale factors read from the file names, in the order of `web_files`; the redshifts are
sorted by scale factor and numbered `0, 1, ..`. -/
def umClasses [Field K] [LinearOrder K] (files : List K) (snaps : List ℕ) : List (Snapshot K) :=
  let order := argsort (fun i => files.getD i 0) files.length                         -- 340
  let redshifts := order.map (fun i => 1 / files.getD i 0 - 1)                        -- 339, 342
  let classes := (List.range files.length).map                                        -- 347-349
    (fun i => ({ index := i, redshift := redshifts.getD i 0 } : Snapshot K))
  (classes.zipIdx.filter (fun p => decide (p.2 ∈ snaps))).map (·.1)                   -- 351

/-- `UniversemachineCatalogs.download_meta`, `universemachine.py:337-379`. -/
def umMeta [Field K] [LinearOrder K] (c : Cosmo K) (h : K) (files : List K) (snaps : List ℕ) :
    Except Err (List (SnapMeta K)) :=
  buildMeta c h (umClasses files snaps)

/-- The raw file read for snapshot number `i`: `web_files[i]`, in the original order of the list
(`universemachine.py:235, 279, 292, 400, 410-414`). -/
def umFile {α : Type} (files : List α) (i : ℕ) : Option α := files[i]?

end Verif.Sim
