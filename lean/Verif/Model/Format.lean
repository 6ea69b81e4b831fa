import Verif.Model.PyDict
import Verif.Model.Exc
import Verif.Model.SnapMeta

/-!
# Model of `SimCatalogs.format` (`simim/siminterface/_rawsiminterface.py:342-581`)

The call is modelled as the list of effects it has on the disk, in order, together with its
outcome.  A run that is interrupted (crash, keyboard interrupt, power failure) performs a prefix of
that list.

Simplifications:
* numbers are exact, dtypes are not modelled (the conversion of basic fields to 32 bits);
* the raw files of one snapshot are one item on the disk, read completely by the loader; the
  loader returns the fields asked for;
* `np.argsort` (not stable by default) is a parameter: any function giving an increasing order;
* a raw array of length 1 is not broadcast to `n_halos` rows (it is an error here);
* every HDF5 call is one effect, durable once done;
* `file.attrs` other than `snapshots` and `number_snaps` are omitted.
-/

namespace Verif.Format

open Verif.Sim (Err SnapMeta)

abbrev Name := String

/-- A raw array: one number per halo, or a row of numbers per halo. -/
inductive Col (K : Type) where
  | one (v : List K)
  | many (rows : List (List K))
  deriving DecidableEq

/-- One formatted property: name, units, h dependence (the dtype is omitted),
`_rawsiminterface.py:160-166`. -/
structure Sub where
  name : Name
  units : String
  hdep : ℤ
  deriving DecidableEq

/-- A table `raw field name -> formatted properties`, `_rawsiminterface.py:158-186`. -/
abbrev Fields := PyDict Name (List Sub)

/-- A `SimCatalogs` object: `self.snaps`, `self.snap_meta`, `self.metadata['number_snaps']`, the field
tables, the unit conversions, `self.h`, and the values `np.logspace(6,20,141)[::-1]`. -/
structure Cat (K : Type) where
  snaps : List ℕ
  metas : List (SnapMeta K)
  numberSnaps : ℕ
  basic : Fields
  dm : Fields
  matter : Fields
  transform : PyDict Name (Col K → K → Col K)
  h : K
  cuts : List K
  argsort : List K → List ℕ

/-- The raw data of a snapshot: its fields and its number of halos. -/
structure Raw (K : Type) where
  fields : PyDict Name (Col K)
  n : ℕ

/-- A dataset; the two attributes are written after it is created (lines 553-554). -/
structure Data (K : Type) where
  data : Col K
  units : Option String := none
  hdep : Option ℤ := none
  deriving DecidableEq

/-- A group `Snapshot i` of the file. -/
structure Group (K : Type) where
  cuts : Option (List (K × ℕ)) := none
  data : PyDict Name (Data K) := []
  info : Option (List (SnapMeta K)) := none
  deriving DecidableEq

/-- The file `data.hdf5`: attributes `snapshots` and `number_snaps`, and the groups. -/
structure File (K : Type) where
  metas : Option (List (SnapMeta K)) := none
  num : Option ℕ := none
  groups : PyDict ℕ (Group K) := []
  deriving DecidableEq

/-- The disk: the formatted file, if it exists, and the raw data of each snapshot. -/
structure Disk (K : Type) where
  file : Option (File K)
  raw : PyDict ℕ (Raw K)

/-- One effect on the disk. -/
inductive Eff (K : Type) where
  | truncate                                        -- h5py.File(.., "w"), line 419
  | setMetas (l : List (SnapMeta K))                -- lines 424, 458
  | setNum (n : ℕ)                                  -- lines 421-422, 459
  | delGroup (i : ℕ)                                -- line 547
  | newGroup (i : ℕ)                                -- line 548
  | newCuts (i : ℕ) (t : List (K × ℕ))              -- line 550
  | newData (i : ℕ) (p : Name) (c : Col K)          -- lines 553, 563, 568
  | setUnits (i : ℕ) (p : Name) (u : String)        -- lines 554, 564, 569
  | setHdep (i : ℕ) (p : Name) (e : ℤ)              -- lines 555, 565, 570
  | setInfo (i : ℕ) (l : List (SnapMeta K))         -- line 573
  | rmRaw (i : ℕ)                                   -- lines 577-580

variable {K : Type}

/-- Change a group of the file. -/
def onGroup (d : Disk K) (i : ℕ) (f : Group K → Group K) : Disk K :=
  match d.file with
  | none => d
  | some file =>
    match file.groups.get? i with
    | none => d
    | some g => { d with file := some { file with groups := file.groups.set i (f g) } }

/-- Change a dataset of a group. -/
def onData (d : Disk K) (i : ℕ) (p : Name) (f : Data K → Data K) : Disk K :=
  onGroup d i (fun g =>
    match g.data.get? p with
    | none => g
    | some x => { g with data := g.data.set p (f x) })

/-- The disk after an effect. -/
def apply (d : Disk K) : Eff K → Disk K
  | .truncate => { d with file := some {} }
  | .setMetas l => { d with file := d.file.map (fun f => { f with metas := some l }) }
  | .setNum n => { d with file := d.file.map (fun f => { f with num := some n }) }
  | .delGroup i => { d with file := d.file.map (fun f => { f with groups := f.groups.erase i }) }
  | .newGroup i => { d with file := d.file.map (fun f => { f with groups := f.groups.set i {} }) }
  | .newCuts i t => onGroup d i (fun g => { g with cuts := some t })
  | .newData i p c => onGroup d i (fun g => { g with data := g.data.set p { data := c } })
  | .setUnits i p u => onData d i p (fun x => { x with units := some u })
  | .setHdep i p e => onData d i p (fun x => { x with hdep := some e })
  | .setInfo i l => onGroup d i (fun g => { g with info := some l })
  | .rmRaw i => { d with raw := d.raw.erase i }

/-- The disk after a list of effects. -/
def applyAll (d : Disk K) (es : List (Eff K)) : Disk K := es.foldl apply d

/-! ## Formatting one snapshot (lines 469-541) -/

/-- The dictionary returned by the loader for the fields asked for (line 470); a field the raw
data do not have is a `KeyError`. -/
def loadFields (raw : Raw K) (keys : List Name) : Except Err (PyDict Name (Col K)) :=
  mapE (fun k =>
    match raw.fields.get? k with
    | none => .error .keyError
    | some c => .ok (k, c)) keys

/-- The unit conversions, lines 473-476. -/
def convert (cat : Cat K) (subhalos : PyDict Name (Col K)) : PyDict Name (Col K) :=
  subhalos.map (fun p => (p.1, match cat.transform.get? p.1 with
    | some f => f p.2 cat.h
    | none => p.2))

/-- `a[:, j]`: `IndexError` for a one-dimensional array or if there is no column `j`. -/
def Col.part (c : Col K) (j : ℕ) : Except Err (List K) :=
  match c with
  | .one _ => .error .indexError
  | .many rows =>
    mapE (fun r => match r[j]? with
      | none => .error .indexError
      | some x => .ok x) rows

/-- Assigning to a basic property (lines 512, 518): the array must have one number for each of the
`n` halos. -/
def assign (n : ℕ) (xs : List K) : Except Err (List K) :=
  if xs.length = n then .ok xs else .error .valueError

/-- One column of a basic field with several, lines 509-514. -/
def basicPart (subhalos : PyDict Name (Col K)) (n : ℕ) (key : Name) (p : Sub × ℕ) :
    Except Err (Sub × List K) :=
  if n > 0 then
    match subhalos.get? key with
    | none => .error .keyError
    | some c =>
      match c.part p.2 with
      | .error e => .error e
      | .ok xs =>
        match assign n xs with
        | .error e => .error e
        | .ok xs => .ok (p.1, xs)
  else .ok (p.1, [])

/-- The properties of one basic field, lines 507-520. -/
def basicOne (subhalos : PyDict Name (Col K)) (n : ℕ) (f : Name × List Sub) :
    Except Err (List (Sub × List K)) :=
  if f.2.length > 1 then mapE (basicPart subhalos n f.1) f.2.zipIdx
  else
    match f.2 with
    | [] => .error .indexError
    | s :: _ =>
      if n > 0 then
        match subhalos.get? f.1 with
        | none => .error .keyError
        | some (.many _) => .error .valueError
        | some (.one v) =>
          match assign n v with
          | .error e => .error e
          | .ok xs => .ok [(s, xs)]
      else .ok [(s, [])]

/-- All basic properties, lines 497-520. -/
def basicAll (subhalos : PyDict Name (Col K)) (n : ℕ) (fs : Fields) :
    Except Err (List (Sub × List K)) :=
  match mapE (basicOne subhalos n) fs with
  | .error e => .error e
  | .ok ls => .ok ls.flatten

/-- `a[inds]` on a raw array (rows are moved together). -/
def Col.take (c : Col K) (inds : List ℕ) : Except Err (Col K) :=
  match c with
  | .one v =>
    match Sim.pick v inds with
    | .error e => .error e
    | .ok xs => .ok (.one xs)
  | .many rows =>
    match Sim.pick rows inds with
    | .error e => .error e
    | .ok xs => .ok (.many xs)

/-- The other fields in sorted order, lines 525-529; without halos an array of shape `(0, k)`. -/
def sortOther (subhalos : PyDict Name (Col K)) (n : ℕ) (inds : List ℕ) (fs : Fields) :
    Except Err (PyDict Name (Col K)) :=
  mapE (fun f =>
    if n > 0 then
      match subhalos.get? f.1 with
      | none => .error .keyError
      | some c =>
        match c.take inds with
        | .error e => .error e
        | .ok c' => .ok (f.1, c')
    else .ok (f.1, .many [])) fs

/-- One entry of the mass-cut table, lines 537-541: `max(inds)+1`, where `inds` are the positions
with mass at or above the cut; 0 if there are none. -/
def cutIndex [LinearOrder K] (masses : List K) (cut : K) : ℕ :=
  let inds := (List.range masses.length).filter
    (fun i => match masses[i]? with | some m => decide (cut ≤ m) | none => false)
  match inds.max? with
  | none => 0
  | some i => i + 1

/-- The table of mass cuts, lines 533-541. -/
def massCuts [LinearOrder K] (cuts masses : List K) : List (K × ℕ) :=
  cuts.map (fun c => (c, cutIndex masses c))

/-- What will be written for a snapshot: the cut table, the basic properties, and the other
fields. -/
structure Formatted (K : Type) where
  cuts : List (K × ℕ)
  basic : List (Sub × List K)
  other : PyDict Name (Col K)

/-- `basic_properties[sorted_inds]`, line 524: the same positions of every property. -/
def sortBasic (inds : List ℕ) (l : List (Sub × List K)) : Except Err (List (Sub × List K)) :=
  mapE (fun p =>
    match Sim.pick p.2 inds with
    | .error e => .error e
    | .ok ys => .ok (p.1, ys)) l

/-- Format the data of one snapshot, lines 470-541. -/
def formatOne [LinearOrder K] (cat : Cat K) (other : Fields) (raw : Raw K) :
    Except Err (Formatted K) :=
  match (if raw.n > 0 then loadFields raw (cat.basic.keys ++ other.keys)
      else .ok [] : Except Err (PyDict Name (Col K))) with                         -- line 470
  | .error e => .error e
  | .ok sub0 =>
    let subhalos := if raw.n > 0 then convert cat sub0 else sub0                   -- lines 473-476
    match basicAll subhalos raw.n cat.basic with                                   -- lines 497-520
    | .error e => .error e
    | .ok basic =>
      if ¬ (basic.map (·.1.name)).Nodup then .error .valueError                    -- line 502
      else
        match basic.find? (fun p => p.1.name = "mass") with
        | none => .error .valueError                                               -- line 523
        | some (_, masses) =>
          let inds := (cat.argsort masses).reverse                                 -- line 523
          match sortBasic inds basic with                                          -- line 524
          | .error e => .error e
          | .ok basic' =>
            match sortOther subhalos raw.n inds other with                         -- lines 525-529
            | .error e => .error e
            | .ok other' =>
              match basic'.find? (fun p => p.1.name = "mass") with
              | none => .error .valueError
              | some (_, masses') =>
                .ok { cuts := massCuts cat.cuts masses', basic := basic', other := other' }

/-! ## Writing one snapshot (lines 543-580) -/

/-- A dataset to write: name, values, units, h dependence. -/
structure Item (K : Type) where
  name : Name
  col : Col K
  units : String
  hdep : ℤ
  deriving DecidableEq

/-- The datasets made from one of the other fields, in order, lines 558-570; computing one may
raise.  Columns whose name begins with `none` are skipped when the field has several. -/
def otherItems (sorted : PyDict Name (Col K)) (f : Name × List Sub) : List (Except Err (Item K)) :=
  if f.2.length > 1 then
    (f.2.zipIdx.filter (fun p => decide (p.1.name.toList.take 4 ≠ "none".toList))).map (fun p =>
      match sorted.get? f.1 with
      | none => .error .keyError
      | some c =>
        match c.part p.2 with
        | .error e => .error e
        | .ok xs => .ok { name := p.1.name, col := .one xs, units := p.1.units, hdep := p.1.hdep })
  else
    match f.2 with
    | [] => [.error .indexError]
    | s :: _ =>
      match sorted.get? f.1 with
      | none => [.error .keyError]
      | some c => [.ok { name := s.name, col := c, units := s.units, hdep := s.hdep }]

/-- All datasets of a snapshot, lines 552-570. -/
def items (f : Formatted K) (other : Fields) : List (Except Err (Item K)) :=
  f.basic.map (fun p => .ok { name := p.1.name, col := .one p.2, units := p.1.units,
                              hdep := p.1.hdep }) ++
    other.flatMap (otherItems f.other)

/-- Creating datasets one after the other; a name already in the group is a `ValueError`
(`used` are the names in the group). -/
def writeData (i : ℕ) : List Name → List (Except Err (Item K)) → List (Eff K) × Except Err Unit
  | _, [] => ([], .ok ())
  | _, .error e :: _ => ([], .error e)
  | used, .ok x :: rest =>
    if x.name ∈ used then ([], .error .valueError)
    else
      let r := writeData i (x.name :: used) rest
      (.newData i x.name x.col :: .setUnits i x.name x.units :: .setHdep i x.name x.hdep :: r.1,
        r.2)

/-- Write one snapshot to the file and delete its raw data if requested, lines 543-580. -/
def writeOne (cat : Cat K) (other : Fields) (clean : Bool) (present : Bool) (i : ℕ)
    (f : Formatted K) : List (Eff K) × Except Err Unit :=
  let start : List (Eff K) :=
    (if present then [.delGroup i] else []) ++ [.newGroup i, .newCuts i f.cuts]    -- lines 546-550
  match writeData i ["mass_cuts"] (items f other) with                             -- lines 552-570
  | (es, .error e) => (start ++ es, .error e)
  | (es, .ok ()) =>
    (start ++ es ++ [.setInfo i (cat.metas.filter (fun m => m.index = i))] ++      -- lines 572-573
      (if clean then [.rmRaw i] else []), .ok ())                                  -- lines 576-580

/-- Is the group of snapshot `i` in the file? -/
def hasGroup (d : Disk K) (i : ℕ) : Bool :=
  match d.file with
  | none => false
  | some f => f.groups.has i

/-- The loop over snapshots, lines 466-580. -/
def formatLoop [LinearOrder K] (cat : Cat K) (other : Fields) (clean : Bool) :
    Disk K → List ℕ → List (Eff K) × Except Err Unit
  | _, [] => ([], .ok ())
  | d, i :: rest =>
    match d.raw.get? i with
    | none => ([], .error .fileNotFound)                                           -- line 470
    | some raw =>
      match formatOne cat other raw with
      | .error e => ([], .error e)
      | .ok f =>
        match writeOne cat other clean (hasGroup d i) i f with
        | (es, .error e) => (es, .error e)
        | (es, .ok ()) =>
          let r := formatLoop cat other clean (applyAll d es) rest
          (es ++ r.1, r.2)

/-- Options of a call. -/
structure Opts where
  remake : Bool := false
  overwrite : Bool := false
  basicOnly : Bool := false
  clean : Bool := false
  cleanCheck : Bool := true

/-- The prompt of lines 387-396: `some true` = go on, `some false` = abort, `none` = still waiting
for an answer. -/
def prompt : List String → Option Bool
  | [] => none
  | a :: rest => if a = "y" then some true else if a = "n" then some false else prompt rest

/-- The name of a group. -/
def groupName (i : ℕ) : String := "Snapshot " ++ toString i

/-- `list(file.keys())[0]`: HDF5 lists names alphabetically. -/
def firstGroup (groups : PyDict ℕ (Group K)) : Option (Group K) :=
  match groups with
  | [] => none
  | (i, g) :: rest =>
    some (rest.foldl (fun (best : ℕ × Group K) q =>
      if groupName q.1 < groupName best.1 then q else best) (i, g)).2

/-- The names in a group (`mass_cuts` included). -/
def Group.names (g : Group K) : List Name :=
  (if g.cuts.isSome then ["mass_cuts"] else []) ++ g.data.keys

/-- `{**a, **b}`. -/
def merge (a b : Fields) : Fields := b.foldl (fun d p => d.set p.1 p.2) a

/-- The other fields used when adding to a file: those whose first property is in the first group,
lines 433-440. -/
def otherOf (cat : Cat K) (names : List Name) : Except Err Fields :=
  (merge cat.matter cat.dm).foldr (fun p acc =>
    match acc with
    | .error e => .error e
    | .ok l =>
      match p.2 with
      | [] => .error .indexError
      | s :: _ => if s.name ∈ names then .ok (p :: l) else .ok l) (.ok [])

/-- Insert into a table sorted by snapshot number. -/
def insertByIndex (m : SnapMeta K) : List (SnapMeta K) → List (SnapMeta K)
  | [] => [m]
  | x :: rest => if m.index < x.index then m :: x :: rest else x :: insertByIndex m rest

/-- `np.sort(meta_snaps, order='index')`, line 455. -/
def sortByIndex (l : List (SnapMeta K)) : List (SnapMeta K) := l.foldr insertByIndex []

/-- Is a new file made? Line 410: there is none, or `remake`, or it has no groups. -/
def fresh (d : Disk K) (o : Opts) : Bool :=
  match d.file with
  | none => true
  | some f => o.remake || f.groups.isEmpty

/-- `format`, lines 342-580.  Result: the effects in order and the outcome; `none` if the prompt is
still waiting. -/
def format [LinearOrder K] (cat : Cat K) (o : Opts) (answers : List String) (d : Disk K) :
    Option (List (Eff K) × Except Err Unit) :=
  match (if o.clean ∧ o.cleanCheck then prompt answers else some true) with        -- lines 386-396
  | none => none
  | some false => some ([], .ok ())
  | some true =>
    if fresh d o then                                                              -- line 410
      let other := if o.basicOnly then [] else merge cat.dm cat.matter             -- lines 412-415
      let start : List (Eff K) := [.truncate, .setNum cat.numberSnaps, .setMetas cat.metas]
      if cat.snaps = [] then some (start, .ok ())                                  -- lines 461-463
      else
        let r := formatLoop cat other o.clean (applyAll d start) cat.snaps
        some (start ++ r.1, r.2)
    else
      match d.file with
      | none => some ([], .error .fileNotFound)
      | some file =>
        let add := cat.snaps.filter (fun i => !file.groups.has i)                  -- line 430
        let replace := cat.snaps.filter (fun i => file.groups.has i)               -- line 431
        match firstGroup file.groups with
        | none => some ([], .error .indexError)
        | some g =>
          match otherOf cat g.names with                                           -- lines 433-440
          | .error e => some ([], .error e)
          | .ok other =>
            match file.metas, file.num with                                        -- lines 442-443
            | some old, some _ =>
              let todo := if o.overwrite then add ++ replace else add              -- lines 445-448
              let kept := old.filter (fun m => decide (m.index ∉ todo))            -- line 452
              let new := cat.metas.filter (fun m => decide (m.index ∈ todo))       -- line 453
              let all := sortByIndex (kept ++ new)                                 -- lines 454-455
              let start : List (Eff K) := [.setMetas all, .setNum all.length]      -- lines 457-459
              if todo = [] then some (start, .ok ())                               -- lines 461-463
              else
                let r := formatLoop cat other o.clean (applyAll d start) todo
                some (start ++ r.1, r.2)
            | _, _ => some ([], .error .keyError)

end Verif.Format
