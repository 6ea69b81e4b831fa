import Mathlib.Algebra.Order.Field.Basic
import Verif.Model.PyDict

/-!
# Model of `simim/_handlers.py` (class `Handler`) and `simim/galprops/galprops.py`

Simplifications (all definitions below):
* a property is a one-dimensional array of numbers of an ordered field `K`, `none` is NaN;
  of numpy's dtypes only "float" and "integer" are distinguished, and only where
  the code's behaviour depends on it (`make_property` stores NaN);
* one HDF5 group is a dictionary from dataset names to datasets;
* warnings are omitted; `objectname`, `path`, `groupname` play no role.
-/

namespace Verif.Handler

abbrev Name := String

/-- A number or NaN (`none`). -/
abbrev V (K : Type) := Option K

/-- Python exceptions. -/
inductive Err where
  | valueError | keyError | typeError | indexError | attributeError
  deriving DecidableEq, Repr

/-- A dataset in the group with its attributes `units`, `h dependence` (which may be missing)
and `userdefined` (`_handlers.py:44-45, 381-383`). -/
structure Dataset (K : Type) where
  vals : List (V K)
  units : Option String
  hdep : Option ℤ
  userdefined : Bool

variable {K : Type}

/-- The attributes of a `Handler` object together with the HDF5 group it refers to.
`default_in_h_units` is `inH`; `extra` is `extra_props`. -/
structure State (K : Type) where
  file : PyDict Name (Dataset K)
  h : K
  all : List Name            -- properties_all
  units : PyDict Name String -- properties_units
  hdep : PyDict Name ℤ       -- properties_h_dependence
  saved : List Name          -- properties_saved
  nAll : ℕ                   -- nhalos_all (and inds_all = 0, .., nAll-1)
  loaded : PyDict Name (List (V K)) -- properties_loaded
  generated : List Name      -- properties_generated
  active : List ℕ            -- inds_active
  nActive : ℕ                -- nhalos_active
  inH : Bool                 -- default_in_h_units
  extra : PyDict Name K      -- extra_props (numerical entries)

/-- Read one attribute of every property, `_handlers.py:44-45`; a missing attribute is a
`KeyError`. -/
def readAttrs {α : Type} (attr : Dataset K → Option α) :
    PyDict Name (Dataset K) → Except Err (PyDict Name α)
  | [] => .ok []
  | (p, d) :: rest =>
    match attr d with
    | none => .error .keyError
    | some a =>
      match readAttrs attr rest with
      | .error e => .error e
      | .ok out => .ok ((p, a) :: out)

/-- `Handler.__init__`, `_handlers.py:16-63`. -/
def init (file : PyDict Name (Dataset K)) (h : K) (inH : Bool) : Except Err (State K) :=
  let props := file.filter (fun p => decide (p.1 ≠ "mass_cuts"))
  match readAttrs Dataset.units props with                       -- line 44
  | .error e => .error e
  | .ok units =>
    match readAttrs Dataset.hdep props with                      -- line 45
    | .error e => .error e
    | .ok hdep =>
      match file.get? "mass" with
      | none => .error .keyError                                 -- line 49
      | some m =>
        .ok { file := file, h := h
              all := props.map (·.1)                             -- line 43
              units := units, hdep := hdep
              saved := props.map (·.1)                           -- line 47
              nAll := m.vals.length                              -- line 49
              loaded := [], generated := []                      -- lines 52-53
              active := List.range m.vals.length                 -- line 59
              nActive := m.vals.length                           -- line 60
              inH := inH                                         -- line 63, 77
              extra := [("h", h)] }                              -- line 55

/-- `has_property`, `_handlers.py:104-121`. -/
def hasProperty (s : State K) (p : Name) : Bool := decide (p ∈ s.all)

/-- `has_loaded`, `_handlers.py:123-140`. -/
def hasLoaded (s : State K) (p : Name) : Bool := s.loaded.has p

/-- `load_property` for one name, `_handlers.py:155-166`. -/
def loadOne (s : State K) (p : Name) : State K × Except Err Unit :=
  if p ∈ s.saved then
    match s.file.get? p with
    | none => (s, .error .keyError)
    | some d => ({ s with loaded := s.loaded.set p d.vals }, .ok ())
  else (s, .error .valueError)

/-- A Python loop `for x in xs: body(x)`: stops at the first exception, keeping the state. -/
def forEach {σ ι : Type} (body : σ → ι → σ × Except Err Unit) : σ → List ι → σ × Except Err Unit
  | s, [] => (s, .ok ())
  | s, x :: xs =>
    match body s x with
    | (s', .ok ()) => forEach body s' xs
    | (s', .error e) => (s', .error e)

/-- `load_property`, `_handlers.py:142-166`. -/
def load (s : State K) (ps : List Name) : State K × Except Err Unit := forEach loadOne s ps

/-- `unload_property`, `_handlers.py:168-185`. -/
def unload (s : State K) (ps : List Name) : State K :=
  { s with loaded := ps.foldl (fun d p => d.erase p) s.loaded }

/-- Fancy indexing `arr[inds]`; an index out of range raises `IndexError`. -/
def gather {α : Type} (arr : List α) : List ℕ → Except Err (List α)
  | [] => .ok []
  | i :: is =>
    match arr[i]? with
    | none => .error .indexError
    | some v =>
      match gather arr is with
      | .error e => .error e
      | .ok vs => .ok (v :: vs)

/-- `value * h**e` on an array; NaN stays NaN.  For `e = 0` the value is returned
unchanged (`_handlers.py:226-229, 236-239`). -/
def scaleH [DivisionRing K] (h : K) (e : ℤ) (vs : List (V K)) : List (V K) :=
  if e ≠ 0 then vs.map (fun v => v.map (fun x => x * h ^ e)) else vs

/-- The index array used: `inds_all` or `inds_active` (`_handlers.py:212-215, 289-292`). -/
def inds (s : State K) (useAll : Bool) : List ℕ :=
  if useAll then List.range s.nAll else s.active

/-- `return_property`, `_handlers.py:187-239`.  The result `ok none` is Python's implicit
`None` when the property is neither loaded nor saved (the function then ends without a
`return`). -/
def returnProperty [DivisionRing K] (s : State K) (p : Name) (useAll : Bool)
    (inH : Option Bool) : Except Err (Option (List (V K))) :=
  let inHunits := inH.getD s.inH                      -- lines 209-210
  let is := inds s useAll                             -- lines 212-215
  if p ∈ s.all then                                   -- line 217
    let e : Except Err ℤ :=                           -- lines 220-223
      if inHunits then .ok 0
      else match s.hdep.get? p with
        | none => .error .keyError
        | some e => .ok e
    match e with
    | .error e => .error e
    | .ok e =>
      match s.loaded.get? p with
      | some arr =>                                   -- lines 225-229
        match gather arr is with
        | .error e => .error e
        | .ok vs => .ok (some (scaleH s.h e vs))
      | none =>
        if p ∈ s.saved then                           -- lines 231-239
          match s.file.get? p with
          | none => .error .keyError
          | some d =>
            match gather d.vals is with
            | .error e => .error e
            | .ok vs => .ok (some (scaleH s.h e vs))
        else .ok none                                 -- end of function
  else .error .valueError

/-! ## galprops -/

/-- An argument handed to a property function: an array, a scalar from `extra_props`, or
`None`. -/
inductive Arg (K : Type) where
  | arr (vs : List (V K))
  | scalar (x : K)
  | pyNone

/-- The array a property function returns for one property. -/
structure Arr (K : Type) where
  isInt : Bool
  vals : List (V K)

/-- `MultiProp` (`galprops.py:4-73`).  The function takes the keyword arguments and
returns one array per property; `wrap` (a function returning a bare array for one property,
`galprops.py:51-54, 122-123`) is absorbed into `fn`.  `hdep = none` models that the attribute
`h_dependence` was never set (`galprops.py:67-68`).  `tuple`: the function returns its arrays as a
tuple (`return a, b`), whose entries cannot be assigned to (132). -/
structure MultiProp (K : Type) where
  names : List Name
  fn : PyDict Name (Arg K) → PyDict Name K → Except Err (List (Arr K))
  kwargs : List Name
  giveH : Bool          -- give_args_in_h_units
  returnH : Bool        -- function_return_in_h_units
  units : PyDict Name String
  hdep : Option (PyDict Name ℤ)
  tuple : Bool := false

/-- A dict comprehension over a list of pairs: later keys overwrite. -/
def dictOf {α : Type} (l : List (Name × α)) : PyDict Name α :=
  l.foldl (fun d p => d.set p.1 p.2) []

/-- `MultiProp.__init__`, `galprops.py:4-73`.  Lines 67-68: with one power of h per property
the code assigns the powers to `self.units` (as values; here shown as text) and does not set
`self.h_dependence`. -/
def mkMultiProp (names : List Name)
    (fn : PyDict Name (Arg K) → PyDict Name K → Except Err (List (Arr K)))
    (kwargs : List Name) (giveH returnH : Bool) (units : List String) (hdep : List ℤ)
    (tuple : Bool := false) : Except Err (MultiProp K) :=
  let units' : Except Err (PyDict Name String) :=
    match units with
    | [u] => .ok (dictOf (names.map (fun n => (n, u))))
    | us => if us.length = names.length then .ok (dictOf (names.zip us)) else .error .valueError
  match units' with
  | .error e => .error e
  | .ok u =>
    match hdep with
    | [x] => .ok { names := names, fn := fn, kwargs := kwargs, giveH := giveH, returnH := returnH,
                   units := u, hdep := some (dictOf (names.map (fun n => (n, x)))), tuple := tuple }
    | xs =>
      if xs.length = names.length then
        .ok { names := names, fn := fn, kwargs := kwargs, giveH := giveH, returnH := returnH,
              units := dictOf (names.zip (xs.map toString)), hdep := none, tuple := tuple }
      else .error .valueError

/-- The argument collection loop, `galprops.py:101-117`. -/
def collectArgs [DivisionRing K] (s : State K) (remap : PyDict Name Name) (useAll : Bool)
    (giveH : Bool) : PyDict Name (Arg K) → List Name → Except Err (PyDict Name (Arg K))
  | acc, [] => .ok acc
  | acc, kw :: kws =>
    let use := (remap.get? kw).getD kw                      -- lines 103-106
    if hasProperty s use then
      match returnProperty s use useAll (some giveH) with   -- line 115
      | .error e => .error e
      | .ok none => collectArgs s remap useAll giveH (acc.set kw .pyNone) kws
      | .ok (some vs) => collectArgs s remap useAll giveH (acc.set kw (.arr vs)) kws
    else
      match s.extra.get? use with
      | some x => collectArgs s remap useAll giveH (acc.set kw (.scalar x)) kws  -- line 117
      | none => .error .valueError                          -- lines 109-110

/-- The conversion to h units, `galprops.py:129-132`. -/
def toHUnits [DivisionRing K] (h : K) (hd : PyDict Name ℤ) (tuple : Bool) :
    List (Name × Arr K) → Except Err (List (Arr K))
  | [] => .ok []
  | (n, a) :: rest =>
    match hd.get? n with
    | none => .error .keyError
    | some e =>
      if e ≠ 0 ∧ tuple = true then .error .typeError        -- line 132
      else match toHUnits h hd tuple rest with
      | .error er => .error er
      | .ok out =>
        .ok ((if e ≠ 0 then { isInt := false, vals := a.vals.map (fun v => v.map (fun x => x / h ^ e)) }
          else a) :: out)

/-- `evaluate_all`, `galprops.py:75-134`.  A keyword given twice (`**arguments,**kw_arguments`)
is a `TypeError`. -/
def evaluateAll [DivisionRing K] (m : MultiProp K) (s : State K) (useAll : Bool)
    (remap : PyDict Name Name) (kwArgs : PyDict Name K) : Except Err (List (Arr K)) :=
  match collectArgs s remap useAll m.giveH [] m.kwargs with
  | .error e => .error e
  | .ok args =>
    if args.keys.any (fun k => kwArgs.has k) then .error .typeError
    else
      match m.fn args kwArgs with
      | .error e => .error e
      | .ok vals =>
        if vals.length ≠ m.names.length then .error .valueError     -- lines 124-125
        else if m.returnH then .ok vals
        else match m.hdep with
          | none => if vals = [] then .ok [] else .error .attributeError
          | some hd => toHUnits s.h hd m.tuple (m.names.zip vals)

/-- `MultiProp.evaluate`, `galprops.py:136-139`: `kw_arguments` are accepted but not passed on. -/
def evaluate [DivisionRing K] (m : MultiProp K) (s : State K) (useAll : Bool)
    (remap : PyDict Name Name) (_kwArgs : PyDict Name K) : Except Err (List (Arr K)) :=
  evaluateAll m s useAll remap []

/-! ## Handler operations that use galprops -/

/-- `np.all(inds == inds_all)` with numpy broadcasting, `_handlers.py:293`: arrays of equal
length are compared element by element, an array of length one is compared with every
element of the other; other lengths cannot be compared (then `False`, or a `ValueError`
like the one raised by line 294). -/
def bcastAllEq (a b : List ℕ) : Bool :=
  if a.length = b.length then decide (a = b)
  else match a, b with
    | [x], b => b.all (fun y => decide (x = y))
    | a, [y] => a.all (fun x => decide (x = y))
    | _, _ => false

/-- `arr[inds] = vals`: equal lengths, or one value broadcast; otherwise `ValueError`. -/
def scatter {α : Type} (arr : List α) (is : List ℕ) (vals : List α) : Except Err (List α) :=
  if vals.length = is.length then
    .ok ((is.zip vals).foldl (fun a p => a.set p.1 p.2) arr)
  else match vals with
    | [v] => .ok (is.foldl (fun a i => a.set i v) arr)
    | _ => .error .valueError

/-- Overwrite checks of `make_property`, `_handlers.py:308-317`: the list `overwrite_names`. -/
def checkNames (s : State K) (overwrite : Bool) : List Name → Except Err (List Bool)
  | [] => .ok []
  | n :: ns =>
    if n ∈ s.all then
      if overwrite then
        match checkNames s overwrite ns with
        | .error e => .error e
        | .ok bs => .ok (true :: bs)
      else .error .valueError
    else
      match checkNames s overwrite ns with
      | .error e => .error e
      | .ok bs => .ok (false :: bs)

/-- One property to be stored by `make_property`: its name in the `MultiProp`, its new name,
whether it overwrites, and its values. -/
structure Item (K : Type) where
  name : Name
  newName : Name
  exists' : Bool
  arr : Arr K

/-- Loop body `_handlers.py:322-335`.  `prop_values[:] = np.nan` raises `ValueError` for an
integer array. -/
def storeOne (units : PyDict Name String) (hdep : Option (PyDict Name ℤ)) (is : List ℕ)
    (s : State K) (it : Item K) : State K × Except Err Unit :=
  if it.arr.isInt then (s, .error .valueError)            -- line 327
  else
    match scatter (List.replicate s.nAll none) is it.arr.vals with
    | .error e => (s, .error e)                           -- line 328
    | .ok vals =>
      let s1 := { s with loaded := s.loaded.set it.newName vals }        -- line 330
      match units.get? it.name with
      | none => (s1, .error .keyError)
      | some u =>
        let s2 := { s1 with units := s1.units.set it.newName u }         -- line 331
        match hdep with
        | none => (s2, .error .attributeError)
        | some hd =>
          match hd.get? it.name with
          | none => (s2, .error .keyError)
          | some e =>
            let s3 := { s2 with hdep := s2.hdep.set it.newName e }       -- line 332
            if it.exists' then (s3, .ok ())
            else ({ s3 with generated := s3.generated ++ [it.newName],   -- lines 334-335
                            all := s3.all ++ [it.newName] }, .ok ())

/-- `write_property` for one name, `_handlers.py:363-386`.  Overwriting assigns into the
existing dataset, which needs equal lengths (broadcasting of a length-one array and dtype
conversion are not modelled). -/
def writeOne (overwrite : Bool) (s : State K) (p : Name) : State K × Except Err Unit :=
  match s.loaded.get? p with
  | none => (s, .error .valueError)                                      -- lines 364-365
  | some vals =>
    if decide (p ∈ s.saved) && !overwrite then (s, .error .valueError)   -- lines 369-373
    else
      let target : Except Err (Dataset K) :=
        match s.file.get? p with
        | none => .ok { vals := vals, units := none, hdep := none, userdefined := false }  -- line 377
        | some d =>                                                      -- line 379
          if d.vals.length = vals.length then .ok { d with vals := vals } else .error .typeError
      match target with
      | .error e => (s, .error e)
      | .ok d0 =>
        match s.units.get? p with                                        -- line 381
        | none => ({ s with file := s.file.set p d0 }, .error .keyError)
        | some u =>
          let d1 := { d0 with units := some u }
          match s.hdep.get? p with                                       -- line 382
          | none => ({ s with file := s.file.set p d1 }, .error .keyError)
          | some e =>
            ({ s with file := s.file.set p { d1 with hdep := some e, userdefined := true }
                      saved := if p ∈ s.saved then s.saved else s.saved ++ [p] }, .ok ())

/-- `write_property`, `_handlers.py:342-386`. -/
def write (s : State K) (ps : List Name) (overwrite : Bool) : State K × Except Err Unit :=
  forEach (writeOne overwrite) s ps

/-- `delete_property` for one name, `_handlers.py:401-419`. -/
def deleteOne (s : State K) (p : Name) : State K × Except Err Unit :=
  if p ∈ s.saved then
    match s.file.get? p with
    | none => (s, .error .valueError)
    | some _ =>
      let file' := s.file.erase p
      ({ s with file := file'
                saved := file'.keys                                -- line 411: also "mass_cuts"
                all := s.all.filter (fun q => decide (q ≠ p))
                units := s.units.erase p
                hdep := s.hdep.erase p }, .ok ())
  else (s, .error .valueError)

/-- `delete_property`, `_handlers.py:388-419`. -/
def delete (s : State K) (ps : List Name) : State K × Except Err Unit := forEach deleteOne s ps

/-- The options of `make_property` (`_handlers.py:241`). -/
structure MakeOpts (K : Type) where
  rename : Option (List Name)
  remap : PyDict Name Name
  otherKws : PyDict Name K
  overwrite : Bool
  useAll : Bool
  writeDisk : Bool
  overwriteDisk : Bool
  unloadDisk : Bool

/-- The names used, `_handlers.py:297-305`. -/
def makeNames (m : MultiProp K) (rename : Option (List Name)) : Except Err (List Name) :=
  match rename with
  | none => .ok m.names
  | some r => if r.length ≠ m.names.length then .error .valueError else .ok r

/-- The list of properties to store, `_handlers.py:322-324`. -/
def items : List Name → List Name → List Bool → List (Arr K) → List (Item K)
  | n :: ns, m :: ms, b :: bs, a :: as =>
    { name := n, newName := m, exists' := b, arr := a } :: items ns ms bs as
  | _, _, _, _ => []

/-- `make_property`, `_handlers.py:241-340`. -/
def make [DivisionRing K] (s : State K) (m : MultiProp K) (o : MakeOpts K) :
    State K × Except Err Unit :=
  let is := inds s o.useAll
  if (!o.useAll) && o.writeDisk && !(bcastAllEq is (List.range s.nAll)) then
    (s, .error .valueError)                                              -- lines 293-294
  else
    match makeNames m o.rename with
    | .error e => (s, .error e)
    | .ok names =>
      match checkNames s o.overwrite names with
      | .error e => (s, .error e)
      | .ok exist =>
        match evaluateAll m s o.useAll o.remap o.otherKws with           -- line 320
        | .error e => (s, .error e)
        | .ok vals =>
          match forEach (storeOne m.units m.hdep is) s (items m.names names exist vals) with
          | (s1, .error e) => (s1, .error e)
          | (s1, .ok ()) =>
            if o.writeDisk then                                          -- lines 337-340
              match write s1 names o.overwriteDisk with
              | (s2, .error e) => (s2, .error e)
              | (s2, .ok ()) => (if o.unloadDisk then unload s2 names else s2, .ok ())
            else (s1, .ok ())

/-- Is the value inside the range?  `(vals>=pmin) & (vals<=pmax)`, `_handlers.py:458`; comparisons with NaN are false;
`none` as a bound is an infinite bound. -/
def inRange [LE K] [DecidableLE K] (lo hi : Option K) : V K → Bool
  | none => false
  | some x =>
    (match lo with | none => true | some l => decide (l ≤ x)) &&
    (match hi with | none => true | some u => decide (x ≤ u))

/-- `np.nonzero((vals>=pmin) & (vals<=pmax))[0]`, `_handlers.py:458`. -/
def nonzeroRange [LE K] [DecidableLE K] (lo hi : Option K) (vals : List (V K)) : List ℕ :=
  (List.range vals.length).filter (fun i => match vals[i]? with
    | some v => inRange lo hi v
    | none => false)

/-- `set_property_range`, `_handlers.py:421-465`.  `np.intersect1d(inds, inds_active)` gives the
sorted common elements; as `inds` is strictly increasing this is a filter. -/
def setRange [DivisionRing K] [LE K] [DecidableLE K] (s : State K) (p : Option Name)
    (lo hi : Option K) (reset : Bool) (inH : Option Bool) : State K × Except Err Unit :=
  match p with
  | none => ({ s with active := List.range s.nAll, nActive := s.nAll }, .ok ())
  | some p =>
    match returnProperty s p true (some (inH.getD s.inH)) with
    | .error e => (s, .error e)
    | .ok none => (s, .error .typeError)                 -- `None >= pmin`
    | .ok (some vals) =>
      let is := nonzeroRange lo hi vals
      let a := if reset then is else is.filter (fun i => decide (i ∈ s.active))
      ({ s with active := a, nActive := a.length }, .ok ())

/-- `set_in_h_units`, `_handlers.py:65-77`. -/
def setInH (s : State K) (b : Bool) : State K := { s with inH := b }

/-- The argument collection of `eval_stat`, `_handlers.py:520-535`. -/
def statArgs [DivisionRing K] (s : State K) (remap : PyDict Name Name) (useAll giveH : Bool) :
    PyDict Name (Arg K) → List Name → Except Err (PyDict Name (Arg K))
  | acc, [] => .ok acc
  | acc, kw :: kws =>
    let use := (remap.get? kw).getD kw
    if hasProperty s use then
      match returnProperty s use useAll (some giveH) with
      | .error e => .error e
      | .ok none => statArgs s remap useAll giveH (acc.set kw .pyNone) kws
      | .ok (some vs) => statArgs s remap useAll giveH (acc.set kw (.arr vs)) kws
    else
      match s.extra.get? use with
      | some x => statArgs s remap useAll giveH (acc.set kw (.scalar x)) kws
      | none => .error .keyError                          -- line 535

/-- `eval_stat`, `_handlers.py:467-540`. -/
def evalStat [DivisionRing K] {α : Type} (s : State K)
    (f : PyDict Name (Arg K) → Except Err α) (kwargs : List Name) (remap : PyDict Name Name)
    (other : PyDict Name (Arg K)) (useAll : Bool) (giveH : Option Bool) : Except Err α :=
  match statArgs s remap useAll (giveH.getD s.inH) other kwargs with
  | .error e => .error e
  | .ok args => f args

/-- The state-changing API calls (and reads, which change nothing). -/
inductive Op (K : Type) where
  | load (ps : List Name)
  | unload (ps : List Name)
  | ret (p : Name) (useAll : Bool) (inH : Option Bool)
  | make (m : MultiProp K) (o : MakeOpts K)
  | write (ps : List Name) (overwrite : Bool)
  | delete (ps : List Name)
  | range (p : Option Name) (lo hi : Option K) (reset : Bool) (inH : Option Bool)
  | setInH (b : Bool)

def step [DivisionRing K] [LE K] [DecidableLE K] (s : State K) : Op K → State K
  | .load ps => (load s ps).1
  | .unload ps => unload s ps
  | .ret _ _ _ => s
  | .make m o => (make s m o).1
  | .write ps ov => (write s ps ov).1
  | .delete ps => (delete s ps).1
  | .range p lo hi reset inH => (setRange s p lo hi reset inH).1
  | .setInH b => setInH s b

def run [DivisionRing K] [LE K] [DecidableLE K] (s : State K) (ops : List (Op K)) : State K :=
  ops.foldl step s

end Verif.Handler
