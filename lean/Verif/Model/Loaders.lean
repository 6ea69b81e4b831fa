import Verif.Model.PyDict
import Verif.Model.Exc
import Verif.Model.SnapMeta
import Mathlib.Data.Nat.Notation
import Mathlib.Data.Int.Notation

/-!
# Model of the functions that read raw catalogues

`simim/siminterface/_illustris_datahandling.py`, and the methods `_bin_loader`
(`simim/siminterface/universemachine.py`) and `_loader` (`simim/siminterface/uchuu.py`).

Simplifications: file names are left out (a chunk or data file is given by its number), as
are number types; arrays have one or two dimensions.
-/

namespace Verif.Load

open Verif.Sim (Err)

abbrev Name := String

variable {K : Type}

/-- A dataset: numbers, or rows of a fixed number of numbers. -/
inductive Arr (K : Type) where
  | one (v : List K)
  | many (width : ℕ) (rows : List (List K))
  deriving DecidableEq

/-- `shape[0]`. -/
def Arr.len : Arr K → ℕ
  | .one v => v.length
  | .many _ rows => rows.length

/-! ## Illustris and TNG group catalogues -/

/-- One file of a group catalogue: the number of objects in this file, and the group with the
fields. -/
structure Chunk (K : Type) where
  n : ℕ                          -- Header: N..._ThisFile
  fields : PyDict Name (Arr K)

/-- A group catalogue: the header of the first file (total number of objects, number of files, and
the offsets of the files) and the files (`none` = does not exist). -/
structure Cat (K : Type) where
  total : ℕ
  numFiles : ℕ
  offsets : List ℤ
  files : List (Option (Chunk K))

/-- Open file `i`. -/
def Cat.chunk (c : Cat K) (i : ℕ) : Except Err (Chunk K) :=
  match c.files[i]? with
  | some (some f) => .ok f
  | _ => .error .fileNotFound

/-- An array of zeros of the shape of `a` but with length `n`,
`_illustris_datahandling.py:57-61`. -/
def zeros [Zero K] (n : ℕ) : Arr K → Arr K
  | .one _ => .one (List.replicate n 0)
  | .many w _ => .many w (List.replicate n (List.replicate w 0))

/-- Allocation of the result, `_illustris_datahandling.py:52-61`. -/
def allocate [Zero K] (total : ℕ) (f : Chunk K) (fields : List Name) :
    Except Err (PyDict Name (Arr K)) :=
  mapE (fun name =>
    match f.fields.get? name with
    | none => .error .keyError               -- Exception
    | some a => .ok (name, zeros total a)) fields

/-- `dst[w:w+len(src)] = src` for lists: the part of the array that exists is assigned; its length must
be that of `src`, or `src` has length one and is repeated. -/
def assignRows {α : Type} (dst : List α) (w : ℕ) (src : List α) : Except Err (List α) :=
  let m := min dst.length (w + src.length) - min dst.length w
  if m = src.length then .ok (dst.take w ++ src ++ dst.drop (w + src.length))
  else
    match src with
    | [x] => .ok (dst.take w ++ List.replicate m x ++ dst.drop (w + m))
    | _ => .error .valueError

/-- `result[field][wOffset:wOffset+shape[0]] = f[gName][field]`, `_illustris_datahandling.py:80-83`.  The
number of dimensions is that of the array in the file: an index too many or rows of
another width raise (repeating rows of width one is left out). -/
def assignArr (dst : Arr K) (w : ℕ) (src : Arr K) : Except Err (Arr K) :=
  match dst, src with
  | .one d, .one s =>
    match assignRows d w s with
    | .error e => .error e
    | .ok d' => .ok (.one d')
  | .many wd d, .many ws s =>
    if wd = ws then
      match assignRows d w s with
      | .error e => .error e
      | .ok d' => .ok (.many wd d')
    else .error .valueError
  | .one _, .many _ _ => .error .indexError
  | .many _ _, .one _ => .error .valueError

/-- One field of one file, `_illustris_datahandling.py:73-83`. -/
def loadField (f : Chunk K) (w : ℕ) (result : PyDict Name (Arr K)) (name : Name) :
    Except Err (PyDict Name (Arr K)) :=
  match f.fields.get? name with
  | none => .error .keyError
  | some src =>
    match result.get? name with
    | none => .error .keyError
    | some dst =>
      match assignArr dst w src with
      | .error e => .error e
      | .ok a => .ok (result.set name a)

/-- The loop over the fields of one file, `_illustris_datahandling.py:72-83`, together with the variable
`shape[0]` at its end. -/
def loadFieldsOf (f : Chunk K) (w : ℕ) : PyDict Name (Arr K) → ℕ → List Name →
    Except Err (PyDict Name (Arr K) × ℕ)
  | result, last, [] => .ok (result, last)
  | result, _, name :: rest =>
    match loadField f w result name with
    | .error e => .error e
    | .ok result' =>
      loadFieldsOf f w result' (((f.fields.get? name).map Arr.len).getD 0) rest

/-- The loop over the files, `_illustris_datahandling.py:66-86`. -/
def loadChunks (c : Cat K) (fields : List Name) : PyDict Name (Arr K) → ℕ → List ℕ →
    Except Err (PyDict Name (Arr K))
  | result, _, [] => .ok result
  | result, w, i :: rest =>
    match c.chunk i with
    | .error e => .error e
    | .ok f =>
      if f.n = 0 then loadChunks c fields result w rest             -- lines 69-70
      else
        match loadFieldsOf f w result 0 fields with
        | .error e => .error e
        | .ok (result', len) => loadChunks c fields result' (w + len) rest

/-- What `_loadObjects` returns: a dictionary with the entry `count`, or the array itself. -/
inductive Loaded (K : Type) where
  | dict (count : ℕ) (fields : PyDict Name (Arr K))
  | array (a : Arr K)
  deriving DecidableEq

/-- `_loadObjects`, `_illustris_datahandling.py:30-94`; an empty list of fields stands for all of them. -/
def loadObjects [Zero K] (c : Cat K) (fields : List Name) : Except Err (Loaded K) :=
  match c.chunk 0 with
  | .error e => .error e
  | .ok f0 =>
    if c.total = 0 then .ok (.dict 0 [])                            -- lines 44-46
    else
      let fields := if fields = [] then f0.fields.keys else fields  -- lines 49-50
      match allocate c.total f0 fields with
      | .error e => .error e
      | .ok start =>
        match loadChunks c fields start 0 (List.range c.numFiles) with
        | .error e => .error e
        | .ok result =>
          match fields with
          | [name] =>                                               -- lines 91-92
            match result.get? name with
            | none => .error .keyError
            | some a => .ok (.array a)
          | _ => .ok (.dict c.total result)

/-- `_loader` of `IllustrisCatalogs`, `illustris.py:331-333`: `subhalos.pop('count')`; an array has no `pop`. -/
def illustrisLoader [Zero K] (c : Cat K) (fields : List Name) :
    Except Err (PyDict Name (Arr K) × ℕ) :=
  match loadObjects c fields with
  | .error e => .error e
  | .ok (.array _) => .error .attributeError
  | .ok (.dict n d) => .ok (d, n)

/-- `a[i]` of an array, for `i ≥ 0`: a number or a row. -/
def Arr.at (a : Arr K) (i : ℕ) : Except Err (List K) :=
  match a with
  | .one v => match v[i]? with | none => .error .indexError | some x => .ok [x]
  | .many _ rows => match rows[i]? with | none => .error .indexError | some r => .ok r

/-- `offsets[i] <= searchID`. -/
def startsBefore (id : ℤ) (offsets : List ℤ) (i : ℕ) : Bool :=
  match offsets[i]? with
  | some o => decide (0 ≤ id - o)
  | none => false

/-- `np.max(np.where(offsets >= 0))` for `offsets = searchID - offsets`,
`_illustris_datahandling.py:146-147`; `ValueError` if there is none. -/
def fileOf (id : ℤ) (offsets : List ℤ) : Except Err ℕ :=
  match ((List.range offsets.length).filter (startsBefore id offsets)).max? with
  | none => .error .valueError
  | some i => .ok i

/-- The value of one object in one field, `_illustris_datahandling.py:155`. -/
def atOf (i : ℕ) (p : Name × Arr K) : Except Err (Name × List K) :=
  match p.2.at i with
  | .error e => .error e
  | .ok r => .ok (p.1, r)

/-- `_loadSingle` for objects of one kind, `_illustris_datahandling.py:128-157`. -/
def loadSingle (c : Cat K) (id : ℤ) : Except Err (PyDict Name (List K)) :=
  if id < 0 then .error .valueError
  else
    match fileOf id c.offsets with
    | .error e => .error e
    | .ok i =>
      match c.chunk i with
      | .error e => .error e
      | .ok f =>
        mapE (atOf (id - (c.offsets[i]?).getD 0).toNat) f.fields

/-! ## UniverseMachine binary catalogues -/

/-- A record of the file: the flags, and the other entries (lists of one number, or of six for
`pos`). -/
structure Rec (K : Type) where
  flags : ℕ
  fields : PyDict Name (List K)

/-- One entry of a record. -/
def entry (key : Name) (r : Rec K) : Except Err (List K) :=
  match r.fields.get? key with
  | none => .error .valueError
  | some x => .ok x

/-- One column of the records, `universemachine.py:283-284`. -/
def column (recs : List (Rec K)) (key : Name) : Except Err (Name × List (List K)) :=
  match mapE (entry key) recs with
  | .error e => .error e
  | .ok l => .ok (key, l)

/-- `_bin_loader`, `universemachine.py:242-288`.  The result of `%` on line 285 is not used. -/
def binLoader (recs : List (Rec K)) (fields : List Name) :
    Except Err (PyDict Name (List (List K)) × ℕ) :=
  let data := recs.filter (fun r => decide (r.flags &&& 16 ≠ 16))       -- line 280
  match mapE (column data) fields with
  | .error e => .error e
  | .ok subhalos =>
    if PyDict.has subhalos "pos" then .ok (subhalos, data.length)              -- lines 285-286
    else .error .keyError

/-! ## Uchuu catalogues -/

/-- One field of a data file, `uchuu.py:235`; `file f = none` if the file does not have the field. -/
def uchuuField (file : Name → Option (List K)) (f : Name) : Except Err (Name × List K) :=
  match file f with
  | none => .error .keyError
  | some v => .ok (f, v)

/-- The fields taken from one data file, `uchuu.py:225-236`. -/
def uchuuFile (index : PyDict Name ℕ) (files : ℕ → Option (Name → Option (List K)))
    (fields : List Name) (df : ℕ) : Except Err (PyDict Name (List K)) :=
  match fields.filter (fun f => decide (index.get? f = some df)) with
  | [] => .ok []
  | fs =>
    match files df with
    | none => .error .fileNotFound
    | some file => mapE (uchuuField file) fs

/-- `_loader`, `uchuu.py:217-243`: `index` is `datafile_indices`, `files` the data files, `order` the
numbers of the data files in increasing order. -/
def uchuuLoader (index : PyDict Name ℕ) (order : List ℕ) (files : ℕ → Option (Name → Option (List K)))
    (fields : List Name) : Except Err (PyDict Name (List K) × ℕ) :=
  if fields.any (fun f => !index.has f) then .error .valueError         -- lines 218-220
  else
    match mapE (uchuuFile index files fields) order with
    | .error e => .error e
    | .ok parts =>
      match parts.flatten with
      | [] => .error .indexError                                        -- lens[0]
      | p :: rest =>
        if (p :: rest).any (fun q => decide (q.2.length ≠ p.2.length)) then .error .valueError
        else .ok (p :: rest, p.2.length)

end Verif.Load
