import Mathlib.Data.List.Sort
import Mathlib.Data.String.Basic
import Verif.Model.PyDict
import Verif.Model.LightCone

/-!
# Model of the files of a set of lightcones (`simim/lightcone/lcmaker.py:25-355, 542-846`)

A call is a list of steps computed from the state before it: changes of single files and
exceptions.  A crash is a prefix of this list.

Simplifications: each change of a file reaches the disk before the next one starts; opening a
missing file with mode `'a'` raises instead of creating it; the group `'Lightcone Full'` is made in
one step; units and other attributes are left out.
-/

namespace Verif.LC

open Verif.Sim (Err SnapMeta)
open Matrix

/-- A file `lc_NNNN.hdf5`: the two matrices, the objects (`'Lightcone Basic'` and
`Indexing/sim_indices`), the redshift table, the datasets of `'Lightcone Full'` and the flags
`status_basic`, `status_extra_initialized`, `status_extra_completed`. -/
structure LCFile (K : Type) where
  losM : Mat K
  paM : Mat K
  rows : Option (List (Row K))
  tab : List (K × ℕ)
  full : Option (PyDict String (List K))
  basicDone : Option Bool
  extraInit : Option Bool
  extraDone : Option Bool

/-- A change of one file. -/
inductive FEff (K : Type) where
  /-- Opening the file with mode `'w'`, `lcmaker.py:620`. -/
  | truncate (losM paM : Mat K)
  /-- Flags and redshift table, `lcmaker.py:642-651`. -/
  | init (bins : List K)
  /-- The objects of one slice, `lcmaker.py:804-834`. -/
  | append (rows : List (Row K))
  /-- The group `'Lightcone Full'`, `lcmaker.py:842-844`. -/
  | makeFull
  /-- `status_basic = True`, `lcmaker.py:845`. -/
  | setBasic
  /-- `status_extra_initialized = True`, `lcmaker.py:159, 222`. -/
  | beginExtra
  /-- `status_extra_completed = b`, `lcmaker.py:160, 223`. -/
  | setDone (b : Bool)
  /-- `create_dataset(key, shape=shape, chunks=chunks)`, `lcmaker.py:162-167`: zeros.  The chunks are as long as
  the dataset if this is shorter than 2500; HDF5 refuses chunks of length 0. -/
  | newSet (key : String)
  /-- `dataset[start:start+len(vals)] = vals`, `lcmaker.py:216`. -/
  | write (key : String) (start : ℕ) (vals : List K)

/-- One step of a call. -/
inductive Step (K : Type) where
  | eff (i : ℕ) (e : FEff K)
  | fail (e : Err)

/-- The files of a set of lightcones, by number. -/
abbrev Folder (K : Type) := ℕ → Option (LCFile K)

variable {K : Type}

/-- The datasets of `'Lightcone Basic'`, `lcmaker.py:785-786`. -/
def basicData (rows : List (Row K)) : PyDict String (List K) :=
  [("pos_x", rows.map (·.posX)), ("pos_y", rows.map (·.posY)), ("pos_z", rows.map (·.posZ)),
    ("ra", rows.map (·.ra)), ("dec", rows.map (·.dec)), ("redshift", rows.map (·.redshift)),
    ("mass", rows.map (·.mass))]

/-- `l[start:start+len(vals)] = vals`. -/
def splice (l : List K) (start : ℕ) (vals : List K) : List K :=
  l.take start ++ vals ++ l.drop (start + vals.length)

variable [Field K] [LinearOrder K] [FloorRing K]

/-- The effect of a change on an existing file. -/
def LCFile.step (f : LCFile K) : FEff K → Except Err (LCFile K)
  | .truncate l p => .ok ⟨l, p, none, [], none, none, none, none⟩
  | .init bins => .ok { f with tab := bins.map (fun z => (z, 0)), basicDone := some false,
                               extraInit := some false, extraDone := some false }
  | .append rows => .ok { f with rows := some ((f.rows.getD []) ++ rows),
                                 tab := addIndex f.tab rows }
  | .makeFull =>
    match f.rows with
    | none => .error .keyError                                  -- no group 'Lightcone Basic'
    | some rows =>
      match f.full with
      | some _ => .error .valueError
      | none => .ok { f with full := some (basicData rows) }
  | .setBasic => .ok { f with basicDone := some true }
  | .beginExtra => .ok { f with extraInit := some true }
  | .setDone b => .ok { f with extraDone := some b }
  | .newSet key =>
    match f.rows, f.full with
    | some rows, some full =>
      if full.has key then .error .valueError
      else if rows = [] then .error .valueError        -- lines 164-166: chunks of length 0 are refused
      else .ok { f with full := some (full.set key (List.replicate rows.length 0)) }
    | _, _ => .error .keyError
  | .write key start vals =>
    match f.full with
    | none => .error .keyError
    | some full =>
      match full.get? key with
      | none => .error .keyError
      | some l => .ok { f with full := some (full.set key (splice l start vals)) }

/-- The effect of a change on a file that may not exist. -/
def stepFile (f : Option (LCFile K)) (e : FEff K) : Except Err (LCFile K) :=
  match f, e with
  | none, .truncate l p => .ok ⟨l, p, none, [], none, none, none, none⟩
  | none, _ => .error .fileNotFound
  | some f, e => f.step e

/-- Execute steps until the first exception. -/
def exec : List (Step K) → Folder K → Folder K × Except Err Unit
  | [], d => (d, .ok ())
  | .fail e :: _, d => (d, .error e)
  | .eff i e :: rest, d =>
    match stepFile (d i) e with
    | .error er => (d, .error er)
    | .ok f => exec rest (Function.update d i (some f))

/-- New files, `lcmaker.py:617-651`. -/
def initPlan (skies : List (Sky K)) (bins : List K) : List (Step K) :=
  skies.zipIdx.flatMap (fun q =>
    [.eff q.2 (.truncate q.1.losM q.1.paM), .eff q.2 (.init bins)])

/-- The objects of each snapshot, `lcmaker.py:653-834`. -/
def fillPlan (st : Settings K) (skies : List (Sky K)) (data : ℕ → SnapData K)
    (snaps : List (SnapMeta K)) : List (Step K) :=
  snaps.flatMap (fun s =>
    match loaded st (data s.index) with
    | .error e => [.fail e]
    | .ok halos => skies.zipIdx.flatMap (fun q =>
        match snapSlices st q.1 s halos with
        | .error e => [.fail e]
        | .ok slices => slices.map (fun rows => .eff q.2 (.append rows))))

/-- The groups `'Lightcone Full'`, `lcmaker.py:838-846`. -/
def finishPlan (skies : List (Sky K)) : List (Step K) :=
  skies.zipIdx.flatMap (fun q => [.eff q.2 .makeFull, .eff q.2 .setBasic])

/-- The steps of `build_lightcones`, `lcmaker.py:617-846`, for lightcones with the random numbers
`skies`. -/
def buildPlan (st : Settings K) (skies : List (Sky K)) (metas : List (SnapMeta K))
    (data : ℕ → SnapData K) (bins : List K) : List (Step K) :=
  initPlan skies bins ++ fillPlan st skies data (snapsUsed st metas) ++ finishPlan skies

/-- A description of what a call adds: `names key` are the datasets made for `key`, and
`fill s key f block` their values for the objects `block` of snapshot `s` in the file `f`. -/
structure Adding (K : Type) where
  names : String → List String
  fill : SnapMeta K → String → LCFile K → List (Row K) → Except Err (List (String × List K))

/-- The flags and new datasets, `lcmaker.py:156-174, 263-278`. -/
def startPlan (add : Adding K) (n : ℕ) (keys : List String) : List (Step K) :=
  (List.range n).flatMap (fun i =>
    [Step.eff i FEff.beginExtra, .eff i (.setDone false)] ++
      (keys.flatMap add.names).map (fun k => Step.eff i (FEff.newSet k)))

/-- The values, `lcmaker.py:176-218, 280-334`. -/
def writePlan (snaps : List (SnapMeta K)) (add : Adding K) (n : ℕ) (keys : List String)
    (d : Folder K) : List (Step K) :=
  snaps.flatMap (fun s => keys.flatMap (fun key => (List.range n).flatMap (fun i =>
    match d i with
    | none => [.fail .fileNotFound]
    | some f =>
      match f.rows with
      | none => [.fail .keyError]
      | some rows =>
        let block := rows.filter (fun r => decide (r.snap = s.index))      -- line 215
        let start := if block = [] then 0 else rows.findIdx (fun r => decide (r.snap = s.index))
        match add.fill s key f block with
        | .error e => [.fail e]
        | .ok vs => vs.map (fun v => .eff i (.write v.1 start v.2)))))     -- line 218

/-- The flags at the end, `lcmaker.py:220-225, 336-341`. -/
def endPlan (n : ℕ) : List (Step K) :=
  (List.range n).flatMap (fun i => [.eff i .beginExtra, .eff i (.setDone true)])

/-- The steps of `add_properties` and `add_pos_properties` after the choice of the keys,
`lcmaker.py:156-225, 263-341`, for `n` lightcones. -/
def addPlanG (snaps : List (SnapMeta K)) (add : Adding K) (n : ℕ) (keys : List String)
    (d : Folder K) : List (Step K) :=
  startPlan add n keys ++ writePlan snaps add n keys d ++ endPlan n

/-- The further datasets of the snapshots: by snapshot number and name. -/
abbrev Catalogue (K : Type) := ℕ → PyDict String (List K)

/-- `values = snap_grp[key][:mass_index_final]`, `lcmaker.py:188-202`. -/
def valuesOf (st : Settings K) (data : ℕ → SnapData K) (cat : Catalogue K) (snap : ℕ)
    (key : String) : Except Err (List K) :=
  match loaded st (data snap) with
  | .error e => .error e
  | .ok halos =>
    if key = "masscheck" then .ok (((data snap).halos.map (·.mass)).take halos.length)
    else
      match (cat snap).get? key with
      | none => .error .keyError
      | some l => .ok (l.take halos.length)

/-- `values[indexing['index']]`. -/
def pick (vals : List K) (block : List (Row K)) : Except Err (List K) :=
  mapE (fun r : Row K => match vals[r.index]? with
    | none => .error .indexError
    | some v => .ok v) block

/-- What `add_properties` writes, `lcmaker.py:185-216`.  The datasets have single precision: `store`
is the rounding. -/
def scalarAdding (st : Settings K) (data : ℕ → SnapData K) (cat : Catalogue K) (store : K → K) :
    Adding K where
  names := fun key => [key]
  fill := fun s key _ block =>
    match valuesOf st data cat s.index key with
    | .error e => .error e
    | .ok vals =>
      match pick vals block with
      | .error e => .error e
      | .ok l => .ok [(key, l.map store)]

/-- What `add_pos_properties` writes, `lcmaker.py:288-335`. -/
def vectorAdding (st : Settings K) (data : ℕ → SnapData K) (cat : Catalogue K) (store : K → K) :
    Adding K where
  names := fun key => [key ++ "_x", key ++ "_y", key ++ "_z"]
  fill := fun s key f block =>
    match valuesOf st data cat s.index (key ++ "_x"), valuesOf st data cat s.index (key ++ "_y"),
        valuesOf st data cat s.index (key ++ "_z") with
    | .ok xs, .ok ys, .ok zs =>
      match pick xs block, pick ys block, pick zs block with
      | .ok x, .ok y, .ok z =>
        let vs := (x.zip (y.zip z)).map (fun q => f.paM *ᵥ (f.losM *ᵥ ![q.1, q.2.1, q.2.2]))
        .ok [(key ++ "_x", vs.map (fun v => store (v 1))), (key ++ "_y", vs.map (fun v => store (v 2))),
          (key ++ "_z", vs.map (fun v => store (v 0)))]
      | _, _, _ => .error .indexError
    | _, _, _ => .error .keyError

/-- `pos_keys`, `lcmaker.py:136-138`. -/
def posKeys : List String :=
  ["v_x", "v_y", "v_z", "spin_x", "spin_y", "spin_z", "cm_x", "cm_y", "cm_z"]

/-- The steps of `add_properties`, `lcmaker.py:117-225`.  `n` is `self.n`, which is only set by
`build_lightcones`; `known` are the properties of the simulation. -/
def addPlan (st : Settings K) (metas : List (SnapMeta K)) (data : ℕ → SnapData K)
    (cat : Catalogue K) (store : K → K) (known : List String) (n : Option ℕ)
    (keys : List String) (d : Folder K) : List (Step K) :=
  match d 0 with
  | none => [.fail .fileNotFound]                                          -- line 140
  | some f0 =>
    match f0.full with
    | none => [.fail .keyError]                                            -- line 141
    | some full =>
      let new := (keys.filter (fun k => decide (k ∉ posKeys) && !full.has k &&
        (decide (k ∈ known) || k == "masscheck"))).insertionSort (· ≤ ·)   -- lines 143-154
      match n with
      | none => [.fail .attributeError]                                    -- line 157
      | some n => addPlanG (snapsUsed st metas) (scalarAdding st data cat store) n new d

/-- `old_lc_keys` of `add_pos_properties`, `lcmaker.py:246-251`. -/
def oldPos (full : PyDict String (List K)) : List String :=
  (full.keys.map (fun k => (k.dropEnd 2).toString)).filter
    (fun k => decide (k ∈ ["pos", "v", "spin", "cm"]))

/-- The steps of `add_pos_properties`, `lcmaker.py:227-341`. -/
def addPosPlan (st : Settings K) (metas : List (SnapMeta K)) (data : ℕ → SnapData K)
    (cat : Catalogue K) (store : K → K) (known : List String) (n : Option ℕ)
    (keys : List String) (d : Folder K) : List (Step K) :=
  match d 0 with
  | none => [.fail .fileNotFound]
  | some f0 =>
    match f0.full with
    | none => [.fail .keyError]
    | some full =>
      let new := (keys.filter (fun k => decide (k ∉ oldPos full) &&
        decide (k ++ "_x" ∈ known))).insertionSort (· ≤ ·)                 -- lines 253-262
      match n with
      | none => [.fail .attributeError]
      | some n => addPlanG (snapsUsed st metas) (vectorAdding st data cat store) n new d

end Verif.LC
