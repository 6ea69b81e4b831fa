import Verif.Model.PyDict
import Verif.Model.Exc
import Mathlib.Order.Defs.LinearOrder
import Mathlib.Data.List.Sort
import Mathlib.Data.Int.Notation
import Mathlib.Data.Nat.Notation

/-!
# Instruments: detectors, fields, maps and samples

Model of `simim/instrument/instrument.py` and `simim/instrument/_helpers.py`.

* `F` are the response and noise functions (a known string such as `'gauss'` is resolved to
  its function before it gets here), `D` the dictionaries of keyword arguments.
* What a response function computes is not modelled.  `Phys` collects the operations that
  evaluate one: making a beam, convolving one property of a field with it, collapsing the
  result with a spectral response, sampling a map, drawing noise.  They are arbitrary
  functions that may raise; the model assumes only that they depend on nothing but their
  arguments (the random numbers of a noise function are an argument).
* Warnings are not modelled.
-/

namespace Verif.Inst

/-- Names of detectors and fields (`str`). -/
abbrev Name := String

/-- Exceptions, by Python class. -/
inductive Err
  | value | type | key | index | attribute
deriving DecidableEq, Repr

/-- A response function argument: `None`, something that can be called (or the name of a
known function), or anything else (instrument.py 231-261). -/
inductive FnArg (F : Type)
  | none
  | fn (f : F)
  | bad
deriving DecidableEq

/-- A keyword argument: `None`, a dictionary, or anything else (instrument.py 264-269). -/
inductive KwArg (D : Type)
  | none
  | dict (d : D)
  | bad
deriving DecidableEq

/-- Which response (`mode` of `_set_response`, instrument.py 205-213). -/
inductive Mode
  | spatial | spectral | noise
deriving DecidableEq

/-- A function with its keyword arguments. -/
structure Resp (F D : Type) where
  fn : F
  kw : D
deriving DecidableEq

/-- `_DetectorInfo`, instrument.py 19-31.  A response is `none` as long as the attribute
has not been set.  The reference frequency, which only serves quick-look plots, is omitted. -/
structure Det (F D O : Type) where
  spatial : Option (Resp F D) := none
  spectral : Option (Resp F D) := none
  noise : Option (Resp F D) := none
  pointing : O

/-- A default of the instrument (`default_spatial_response`, `default_spatial_kwargs` and so
on, instrument.py 276-290). -/
structure Default (F D : Type) where
  fn : Option F := none
  kw : Option D := none

/-- What matters here of a `Grid` (map/gridder.py 126-190): axes `X`, one data cube `G` per
property, units, the pixel sizes and the flags. -/
structure Field (X G K : Type) where
  axes : X
  ndim : ℕ
  props : List G
  axunits : List (Option String)
  gridunits : List (Option String)
  pixel : List K
  active : Bool
  fourier : Bool

/-- A grid of maps: the axes and one map per detector (instrument.py 889-897). -/
structure MapData (X M : Type) where
  axes : X
  cols : List M

/-- An `Instrument`, instrument.py 137-179. -/
structure State (F D O X G M K : Type) where
  detectors : PyDict Name (Det F D O)
  detNames : List Name
  detCounter : ℕ
  fields : PyDict Name (Field X G K)
  fieldProps : PyDict Name ℤ
  fieldNames : List Name
  fieldCounter : ℕ
  consistent : PyDict Name Bool
  maps : PyDict Name (MapData X M)
  spatial : Default F D
  spectral : Default F D
  noise : Default F D
  bestSpatial : Option K
  bestSpectral : Option K
  spatialUnit : Option String
  spectralUnit : Option String
  fluxUnit : Option String

/-- A kernel size: one number as documented, or one per axis (instrument.py 787-795). -/
inductive Kernel
  | int (n : ℤ)
  | pair (m n : ℤ)
deriving DecidableEq

/-- Arguments of `map_fields`, instrument.py 815-850.  `Q` holds the normalisation and the
padding. -/
structure MapArgs (B Q : Type) where
  kernel : Option Kernel := none
  beam : Option B := none
  opts : Q

/-- The computations that are not modelled.
* `beam axes fn kw opts kernel res`: `_setup_beam`, instrument.py 786-813
* `conv axes cube beam opts`: one property of `Grid.convolve`, map/gridder.py 1055-1146
* `collapse axes cube fn kw`: a spectral response and `Grid.collapse_dimension` on one
  property, instrument.py 884-885
* `sample axes map positions`: one property of `Grid.sample`, map/gridder.py 988-1053
* `shift position offset`: `positions + offset`, instrument.py 981
* `noise fn kw n dt seed`: a noise function, instrument.py 972
* `zero`, `add`: numbers. -/
structure Phys (F D O X G B H M P V T S Q K : Type) where
  emptyKw : D
  noOffset : O
  beam : X → F → D → Q → Option (ℤ × ℤ) → Option K → Except Err B
  conv : X → G → B → Q → Except Err H
  collapse : X → H → F → D → Except Err M
  sample : X → M → List P → Except Err (List V)
  shift : P → O → P
  noise : F → D → ℕ → T → S → Except Err (List V)
  zero : V
  add : V → V → V

section
variable {F D O X G B H M P V T S Q K : Type}

/-- `_check_detectors` and `_check_fields`, instrument.py 182-203: all known, none twice. -/
def checkNames (known names : List Name) : Except Err Unit :=
  if names.all (fun n => known.contains n) then
    if decide names.Nodup then .ok () else .error .value
  else .error .value

/-- All maps of the current fields are marked as out of date, instrument.py 279-280,
611-612, 630-632. -/
def markAll (s : State F D O X G M K) : State F D O X G M K :=
  { s with consistent := s.fieldNames.foldl (fun c k => c.set k false) s.consistent }

/-- The attribute of a detector that a mode stands for, instrument.py 271-280. -/
def setSlot (m : Mode) (r : Resp F D) (d : Det F D O) : Det F D O :=
  match m with
  | .spatial => { d with spatial := some r }
  | .spectral => { d with spectral := some r }
  | .noise => { d with noise := some r }

/-- `self.detectors[d].attribute = ...`.  The names have been checked, and the dictionary
has the same names as the list (`wf` below), so the key is always there. -/
def modify (dets : PyDict Name (Det F D O)) (d : Name) (f : Det F D O → Det F D O) :
    PyDict Name (Det F D O) :=
  match dets.get? d with
  | some x => dets.set d (f x)
  | none => dets

/-- The default that a mode stands for, instrument.py 283-290. -/
def setDefault (m : Mode) (v : Default F D) (s : State F D O X G M K) :
    State F D O X G M K :=
  match m with
  | .spatial => { s with spatial := v }
  | .spectral => { s with spectral := v }
  | .noise => { s with noise := v }

/-- The detectors named by a call, instrument.py 216-223. -/
def targets (s : State F D O X G M K) (names : List Name) : List Name :=
  if names = [] then s.detNames else names.filter (fun d => d ≠ "instrument")

/-- The checks at the start of `_set_response`, instrument.py 216-269: the function (or
`None`, possible only without detectors) and the dictionary (or `None`). -/
def responseArgs (s : State F D O X G M K) (names : List Name) (fn : FnArg F) (kw : KwArg D) :
    Except Err (Option F × Option D) :=
  match (if names = [] then .ok () else checkNames s.detNames (targets s names)) with
  | .error e => .error e
  | .ok () =>
    match fn with
    | .bad => .error .value
    | .none =>
      if targets s names ≠ [] then .error .value
      else
        match kw with
        | .bad => .error .value
        | .none => .ok (none, none)
        | .dict d => .ok (none, some d)
    | .fn f =>
      match kw with
      | .bad => .error .value
      | .none => .ok (some f, none)
      | .dict d => .ok (some f, some d)

/-- The responses of some detectors are replaced, instrument.py 271-280. -/
def assign (ph : Phys F D O X G B H M P V T S Q K) (dets : PyDict Name (Det F D O))
    (ds : List Name) (m : Mode) (f : F) (kw : Option D) : PyDict Name (Det F D O) :=
  ds.foldl (fun t d => modify t d (setSlot m ⟨f, kw.getD ph.emptyKw⟩)) dets

/-- The detectors get the new response and, if there are any, all maps are marked,
instrument.py 271-280 (`None` gets here only without detectors). -/
def newResponse (ph : Phys F D O X G B H M P V T S Q K) (s : State F D O X G M K)
    (ds : List Name) (m : Mode) (f : Option F) (k : Option D) : State F D O X G M K :=
  match ds, f with
  | [], _ => s
  | _ :: _, none => s
  | d :: ds, some f => markAll { s with detectors := assign ph s.detectors (d :: ds) m f k }

/-- The default is replaced if the name `'instrument'` is given, instrument.py 283-290. -/
def newDefault (names : List Name) (m : Mode) (v : Default F D) (s : State F D O X G M K) :
    State F D O X G M K :=
  if names.contains "instrument" then setDefault m v s else s

/-- `_set_response`, instrument.py 205-290 (and its wrappers 293-404). -/
def setResponse (ph : Phys F D O X G B H M P V T S Q K) (s : State F D O X G M K)
    (names : List Name) (m : Mode) (fn : FnArg F) (kw : KwArg D) :
    State F D O X G M K × Except Err Unit :=
  match responseArgs s names fn kw with
  | .error e => (s, .error e)
  | .ok (f, k) =>
    (newDefault names m ⟨f, k⟩ (newResponse ph s (targets s names) m f k), .ok ())

/-- `del_detectors`, instrument.py 615-632. -/
def delDetectors (s : State F D O X G M K) (names : List Name) :
    State F D O X G M K × Except Err Unit :=
  match checkNames s.detNames names with
  | .error e => (s, .error e)
  | .ok () =>
    let s1 := { s with
      detectors := names.foldl (fun t d => t.erase d) s.detectors
      detNames := names.foldl (fun t d => t.erase d) s.detNames }
    (if names ≠ [] then markAll s1 else s1, .ok ())

/-- `pointing_offsets`: absent, a pair, a sequence of another length, or something without a
length. -/
inductive OffArg (O : Type)
  | none
  | pair (o : O)
  | wrongLength
  | noLength

/-- Arguments of `add_detector`, instrument.py 407-416 (without the nominal frequency). -/
structure DetArgs (F D O : Type) where
  name : Option Name := none
  spatial : FnArg F := .none
  spatialKw : KwArg D := .none
  spectral : FnArg F := .none
  spectralKw : KwArg D := .none
  noise : FnArg F := .none
  noiseKw : KwArg D := .none
  offsets : OffArg O := .none

/-- No function is given and there is no default, instrument.py 504-509. -/
def noFunction (fn : FnArg F) (d : Default F D) : Bool :=
  match fn, d.fn with
  | .none, none => true
  | _, _ => false

/-- No function and no keywords are given and the default has no keywords, instrument.py
512-517. -/
def noKeywords (fn : FnArg F) (kw : KwArg D) (d : Default F D) : Bool :=
  match fn, kw, d.kw with
  | .none, .none, none => true
  | _, _, _ => false

/-- The function and keywords to use, instrument.py 519-556. -/
def choose (ph : Phys F D O X G B H M P V T S Q K) (fn : FnArg F) (kw : KwArg D)
    (d : Default F D) : FnArg F × KwArg D :=
  match fn with
  | .none =>
    (match d.fn with | some f => .fn f | none => .none,
     match kw with
     | .none => (match d.kw with | some k => .dict k | none => .none)
     | kw => kw)
  | fn =>
    (fn, match kw with
     | .none => .dict ph.emptyKw
     | kw => kw)

/-- The pointing offset, instrument.py 497-501. -/
def offsetOf (ph : Phys F D O X G B H M P V T S Q K) : OffArg O → Except Err O
  | .none => .ok ph.noOffset
  | .pair o => .ok o
  | .wrongLength => .error .value
  | .noLength => .error .type

/-- The checks of `add_detector` before anything is changed, instrument.py 491-517: the
name and the pointing offset. -/
def detChecks (ph : Phys F D O X G B H M P V T S Q K) (s : State F D O X G M K)
    (a : DetArgs F D O) : Except Err (Name × O) :=
  let name := a.name.getD (Nat.repr s.detCounter)
  if s.detNames.contains name then .error .value
  else
    match offsetOf ph a.offsets with
    | .error e => .error e
    | .ok o =>
      if noFunction a.spatial s.spatial || noFunction a.spectral s.spectral
          || noFunction a.noise s.noise then .error .value
      else if noKeywords a.spatial a.spatialKw s.spatial
          || noKeywords a.spectral a.spectralKw s.spectral
          || noKeywords a.noise a.noiseKw s.noise then .error .value
      else .ok (name, o)

/-- The three calls inside the `try`, instrument.py 564-567; the functions and keywords were
chosen before. -/
def setThree (ph : Phys F D O X G B H M P V T S Q K) (s : State F D O X G M K) (name : Name)
    (sp fr no : FnArg F × KwArg D) : State F D O X G M K × Except Err Unit :=
  match setResponse ph s [name] .spatial sp.1 sp.2 with
  | (s1, .error e) => (s1, .error e)
  | (s1, .ok ()) =>
    match setResponse ph s1 [name] .spectral fr.1 fr.2 with
    | (s2, .error e) => (s2, .error e)
    | (s2, .ok ()) => setResponse ph s2 [name] .noise no.1 no.2

/-- `add_detector`, instrument.py 407-612.  The new detector's pointing offset is given from
the start; nothing reads it before it is set (607). -/
def addDetector (ph : Phys F D O X G B H M P V T S Q K) (s : State F D O X G M K)
    (a : DetArgs F D O) : State F D O X G M K × Except Err Name :=
  match detChecks ph s a with
  | .error e => (s, .error e)
  | .ok (name, o) =>
    let sp := choose ph a.spatial a.spatialKw s.spatial
    let fr := choose ph a.spectral a.spectralKw s.spectral
    let no := choose ph a.noise a.noiseKw s.noise
    let s1 := { s with
      detectors := s.detectors.set name { pointing := o }
      detNames := s.detNames ++ [name] }
    match setThree ph s1 name sp fr no with
    | (s2, .error e) =>
      ({ (delDetectors s2 [name]).1 with consistent := s.consistent }, .error e)
    | (s2, .ok ()) =>
      (markAll { s2 with detCounter := s2.detCounter + 1 }, .ok name)

/-- `_check_unit`, _helpers.py 20-34. -/
def knownSpatial : List String := ["rad", "deg", "arcmin", "arcsec"]

/-- _helpers.py 20. -/
def knownSpectral : List String := ["GHz", "Hz", "m", "mm", "um"]

/-- _helpers.py 22. -/
def knownFlux : List String := ["Jy", "mJy"]

/-- One axis in `_check_grid_detector_compatibility`, _helpers.py 47-81. -/
def checkAxis (known : List String) (grid det : Option String) : Except Err Unit :=
  match grid, det with
  | none, _ => .ok ()
  | _, none => .ok ()
  | some g, some d =>
    if known.contains g then
      if g = d then .ok () else .error .value
    else .error .value

/-- The flux unit, _helpers.py 84-94.  Line 90 passes the whole array of units to
`_check_unit`; comparing an array of two or more units with a string is an exception. -/
def checkFlux (gridunits : List (Option String)) (det : Option String) (idx : ℕ) :
    Except Err Unit :=
  match gridunits[idx]? with
  | none => .error .index
  | some none => .ok ()
  | some (some g) =>
    match det with
    | none => .ok ()
    | some d =>
      if gridunits.length = 1 && knownFlux.contains g then
        if g = d then .ok () else .error .value
      else .error .value

/-- `_check_grid_detector_compatibility`, _helpers.py 36-94. -/
def compatible (s : State F D O X G M K) (g : Field X G K) (idx : ℕ) : Except Err Unit :=
  if !g.active then .error .value
  else if g.fourier then .error .value
  else if g.ndim ≠ 3 then .error .value
  else
    match checkAxis knownSpatial (g.axunits[0]?).join s.spatialUnit with
    | .error e => .error e
    | .ok () =>
      match checkAxis knownSpatial (g.axunits[1]?).join s.spatialUnit with
      | .error e => .error e
      | .ok () =>
        match checkAxis knownSpectral (g.axunits[2]?).join s.spectralUnit with
        | .error e => .error e
        | .ok () => checkFlux g.gridunits s.fluxUnit idx

/-- `grid.copy(properties=idx)` for one index, map/gridder.py 201-213 and 470-512: the copy
is made with the units of all properties, which raises unless there is just one. -/
def copyField (g : Field X G K) (idx : ℕ) : Except Err (Field X G K) :=
  match g.props[idx]? with
  | none => .error .value
  | some c =>
    if g.gridunits.length = 1 then .ok { g with props := [c] } else .error .value

/-- The resolution checks, instrument.py 683-692. -/
def resolutionOk [LinearOrder K] (s : State F D O X G M K) (g : Field X G K) : Bool :=
  (match s.bestSpatial with
    | none => true
    | some r => !((g.pixel[0]?).any (fun p => r < p) || (g.pixel[1]?).any (fun p => r < p)))
  && (match s.bestSpectral with
    | none => true
    | some r => !((g.pixel[2]?).any (fun p => r < p)))

/-- The grid that is stored and its property index, instrument.py 694-699: the grid itself,
or a copy with the chosen property only. -/
def storedField (g : Field X G K) (idx : ℤ) (inPlace : Bool) :
    Except Err (Field X G K × ℤ) :=
  if inPlace then .ok (g, idx)
  else
    match copyField g idx.toNat with
    | .error e => .error e
    | .ok c => .ok (c, 0)

/-- Arguments of `add_field`, instrument.py 634-638. -/
structure FieldArgs (X G K : Type) where
  grid : Field X G K
  name : Option Name := none
  idx : Option ℤ := none
  inPlace : Bool := true
  check : Bool := true

/-- `add_field`, instrument.py 634-705.  Line 673 compares the index with the number of
dimensions of the grid. -/
def addField [LinearOrder K] (s : State F D O X G M K) (a : FieldArgs X G K) :
    State F D O X G M K × Except Err Name :=
  let i := a.idx.getD 0
  if i > (a.grid.ndim : ℤ) - 1 || i < 0 then (s, .error .value)
  else
    match (if a.check then compatible s a.grid i.toNat else .ok ()) with
    | .error e => (s, .error e)
    | .ok () =>
      let name := a.name.getD (Nat.repr s.fieldCounter)
      if s.fields.has name then (s, .error .value)
      else if !(resolutionOk s a.grid) then (s, .error .value)
      else
        match storedField a.grid i a.inPlace with
        | .error e => (s, .error e)
        | .ok (g, j) =>
          ({ s with
            fields := s.fields.set name g
            fieldProps := s.fieldProps.set name j
            fieldNames := s.fieldNames ++ [name]
            fieldCounter := s.fieldCounter + 1
            consistent := s.consistent.set name false }, .ok name)

/-- One field is removed, instrument.py 718-725. -/
def dropField (s : State F D O X G M K) (f : Name) : State F D O X G M K :=
  let s1 := { s with
    fields := s.fields.erase f
    fieldProps := s.fieldProps.erase f
    fieldNames := s.fieldNames.erase f }
  if s.maps.has f then
    { s1 with maps := s.maps.erase f, consistent := s.consistent.erase f }
  else s1

/-- `del_fields`, instrument.py 707-725. -/
def delFields (s : State F D O X G M K) (names : List Name) :
    State F D O X G M K × Except Err Unit :=
  match checkNames s.fields.keys names with
  | .error e => (s, .error e)
  | .ok () => (names.foldl dropField s, .ok ())

/-- `_find_spatial_clones` and `_find_pointing_clones`, instrument.py 728-752, for any
comparison that may raise.  The first remaining detector takes all that match with it.  The
bound on the number of rounds is the number of detectors, see `cloneGroups`. -/
def groupLoop (same : Name → Name → Except Err Bool) :
    ℕ → List Name → Except Err (List (List Name))
  | _, [] => .ok []
  | 0, _ :: _ => .ok []
  | n + 1, d0 :: rest =>
    match mapE (fun d => same d d0) (d0 :: rest) with
    | .error e => .error e
    | .ok flags =>
      let found := (((d0 :: rest).zip flags).filter (fun p => p.2)).map (fun p => p.1)
      match groupLoop same n ((d0 :: rest).filter (fun d => !found.contains d)) with
      | .error e => .error e
      | .ok gs => .ok (found :: gs)

/-- instrument.py 728-752. -/
def cloneGroups (same : Name → Name → Except Err Bool) (names : List Name) :
    Except Err (List (List Name)) :=
  groupLoop same names.length names

/-- The comparison at instrument.py 735; an attribute that was never set raises. -/
def sameSpatial [DecidableEq F] [DecidableEq D] (s : State F D O X G M K) (d d0 : Name) :
    Except Err Bool :=
  match (s.detectors.get? d).bind (·.spatial), (s.detectors.get? d0).bind (·.spatial) with
  | some a, some b => .ok (decide (a = b))
  | _, _ => .error .attribute

/-- The comparison at instrument.py 748. -/
def samePointing [DecidableEq O] (s : State F D O X G M K) (d d0 : Name) : Except Err Bool :=
  match s.detectors.get? d, s.detectors.get? d0 with
  | some a, some b => .ok (decide (a.pointing = b.pointing))
  | _, _ => .error .key

/-- `_setup_beam`, instrument.py 754-813.  A kernel size that is one number cannot be
indexed (795).  The beam has one property but gets the units of all properties of the field
(798), which raises unless there is just one. -/
def setupBeam (ph : Phys F D O X G B H M P V T S Q K) (s : State F D O X G M K)
    (g : Field X G K) (r : Resp F D) (kernel : Option Kernel) (q : Q) : Except Err B :=
  match kernel, s.bestSpatial with
  | none, none => .error .value
  | some (.int _), _ => .error .type
  | some (.pair m n), best =>
    if g.gridunits.length = 1 then ph.beam g.axes r.fn r.kw q (some (m, n)) best
    else .error .value
  | none, best =>
    if g.gridunits.length = 1 then ph.beam g.axes r.fn r.kw q none best else .error .value

/-- The beam of a group, instrument.py 872-877. -/
def groupBeam (ph : Phys F D O X G B H M P V T S Q K) (s : State F D O X G M K)
    (g : Field X G K) (a : MapArgs B Q) (group : List Name) : Except Err B :=
  match a.beam with
  | some b => .ok b
  | none =>
    match group with
    | [] => .error .index
    | d :: _ =>
      match (s.detectors.get? d).bind (·.spatial) with
      | none => .error .attribute
      | some r => setupBeam ph s g r a.kernel a.opts

/-- The map of one detector, all properties of the field, instrument.py 883-885. -/
def detectorMap (ph : Phys F D O X G B H M P V T S Q K) (s : State F D O X G M K)
    (g : Field X G K) (conv : List H) (d : Name) : Except Err (List M) :=
  match (s.detectors.get? d).bind (·.spectral) with
  | none => .error .attribute
  | some r => mapE (fun h => ph.collapse g.axes h r.fn r.kw) conv

/-- The maps of one group, in the order of the group, instrument.py 870-887. -/
def groupMaps (ph : Phys F D O X G B H M P V T S Q K) (s : State F D O X G M K)
    (g : Field X G K) (a : MapArgs B Q) (group : List Name) :
    Except Err (List (Name × List M)) :=
  match groupBeam ph s g a group with
  | .error e => .error e
  | .ok b =>
    match mapE (fun c => ph.conv g.axes c b a.opts) g.props with
    | .error e => .error e
    | .ok conv =>
      mapE (fun d => match detectorMap ph s g conv d with
        | .error e => .error e
        | .ok m => .ok (d, m)) group

/-- `all_detector_maps[idx] = ...`, instrument.py 886-887. -/
def place (names : List Name) (slots : List (Option (List M))) (p : Name × List M) :
    List (Option (List M)) :=
  slots.set (names.idxOf p.1) (some p.2)

/-- The first property of an entry (`[:,:,:,0]`), instrument.py 889. -/
def firstOf : Option (List M) → Except Err M
  | none => .error .value
  | some [] => .error .index
  | some (m :: _) => .ok m

/-- `np.stack(all_detector_maps, axis=2)[:,:,:,0]`, instrument.py 889: raises if there are
no detectors, an entry is missing or the entries have no properties; of each map the first
property is kept. -/
def stackFirst (slots : List (Option (List M))) : Except Err (List M) :=
  if slots = [] then .error .value
  else mapE firstOf slots

/-- The groups that share a beam, instrument.py 858-862. -/
def beamGroups [DecidableEq F] [DecidableEq D] (s : State F D O X G M K) (a : MapArgs B Q) :
    Except Err (List (List Name)) :=
  match a.beam with
  | some _ => .ok [s.detNames]
  | none => cloneGroups (sameSpatial s) s.detNames

/-- The map of one field, instrument.py 865-897. -/
def mapField (ph : Phys F D O X G B H M P V T S Q K) (s : State F D O X G M K)
    (groups : List (List Name)) (a : MapArgs B Q) (g : Field X G K) :
    Except Err (MapData X M) :=
  match mapE (groupMaps ph s g a) groups with
  | .error e => .error e
  | .ok parts =>
    match stackFirst (parts.flatten.foldl (place s.detNames)
        (List.replicate s.detNames.length none)) with
    | .error e => .error e
    | .ok cols => .ok ⟨g.axes, cols⟩

/-- The loop over fields in `map_fields`, instrument.py 865-901. -/
def mapLoop (ph : Phys F D O X G B H M P V T S Q K) (groups : List (List Name))
    (a : MapArgs B Q) : State F D O X G M K → List Name → State F D O X G M K × Except Err Unit
  | s, [] => (s, .ok ())
  | s, f :: rest =>
    match s.fields.get? f with
    | none => (s, .error .key)
    | some g =>
      match mapField ph s groups a g with
      | .error e => (s, .error e)
      | .ok m =>
        mapLoop ph groups a
          { s with maps := s.maps.set f m, consistent := s.consistent.set f true } rest

/-- The fields named by a call, instrument.py 846-849 and 938-941. -/
def chosenFields (s : State F D O X G M K) (names : List Name) : Except Err (List Name) :=
  if names = [] then .ok s.fieldNames
  else
    match checkNames s.fields.keys names with
    | .error e => .error e
    | .ok () => .ok names

/-- `map_fields`, instrument.py 815-901. -/
def mapFields [DecidableEq F] [DecidableEq D] (ph : Phys F D O X G B H M P V T S Q K)
    (s : State F D O X G M K) (names : List Name) (a : MapArgs B Q) :
    State F D O X G M K × Except Err Unit :=
  match chosenFields s names with
  | .error e => (s, .error e)
  | .ok fs =>
    if a.beam.isNone && a.kernel.isNone && s.bestSpatial.isNone then (s, .error .value)
    else if a.beam.isSome && a.kernel.isSome then (s, .error .value)
    else
      match beamGroups s a with
      | .error e => (s, .error e)
      | .ok groups => mapLoop ph groups a s fs

/-- Arguments of `sample_fields`, instrument.py 904-909.  `seed` holds the random numbers
that the noise function of a detector gets for a field. -/
structure SampleArgs (P T S : Type) where
  positions : List P
  shapeOk : Bool := true
  signal : Bool := true
  withNoise : Bool := true
  dt : Option T := none
  seed : Name → Name → S

/-- The noise of one detector, instrument.py 972. -/
def noiseOf (ph : Phys F D O X G B H M P V T S Q K) (s : State F D O X G M K)
    (a : SampleArgs P T S) (f d : Name) : Except Err (List V) :=
  if a.withNoise then
    match (s.detectors.get? d).bind (·.noise), a.dt with
    | some r, some dt => ph.noise r.fn r.kw a.positions.length dt (a.seed f d)
    | some _, none => .error .value
    | none, _ => .error .attribute
  else .ok (a.positions.map fun _ => ph.zero)

/-- `map_samples[idet] + samples[:, isamp]`, instrument.py 983 (a noise array of another
length raises; broadcasting of a single number is not modelled). -/
def addArrays (ph : Phys F D O X G B H M P V T S Q K) (xs ys : List V) :
    Except Err (List V) :=
  if xs.length = ys.length then .ok (List.zipWith ph.add xs ys) else .error .value

/-- `map_f.sample(positions + offset, properties=idxs)`, instrument.py 981. -/
def sampleCols (ph : Phys F D O X G B H M P V T S Q K) (m : MapData X M) (ps : List P)
    (idxs : List ℕ) : Except Err (List (List V)) :=
  mapE (fun i => match m.cols[i]? with
    | none => .error .value
    | some c => ph.sample m.axes c ps) idxs

/-- The positions of a group of detectors in the list of detectors, sorted, instrument.py
979. -/
def groupIdxs (names group : List Name) : List ℕ :=
  (group.map names.idxOf).insertionSort (fun i j => i ≤ j)

/-- The samples of a group are added to the lists of the group's detectors, instrument.py
982-983. -/
def addGroup (ph : Phys F D O X G B H M P V T S Q K) :
    List (List V) → List (ℕ × List V) → Except Err (List (List V))
  | acc, [] => .ok acc
  | acc, (i, ys) :: rest =>
    match acc[i]? with
    | none => .error .index
    | some xs =>
      match addArrays ph xs ys with
      | .error e => .error e
      | .ok zs => addGroup ph (acc.set i zs) rest

/-- The loop over groups, instrument.py 977-983. -/
def signalLoop (ph : Phys F D O X G B H M P V T S Q K) (s : State F D O X G M K)
    (m : MapData X M) (a : SampleArgs P T S) :
    List (List V) → List (List Name) → Except Err (List (List V))
  | acc, [] => .ok acc
  | _, [] :: _ => .error .index
  | acc, (d :: ds) :: rest =>
    match s.detectors.get? d with
    | none => .error .key
    | some det =>
      let idxs := groupIdxs s.detNames (d :: ds)
      match sampleCols ph m (a.positions.map fun p => ph.shift p det.pointing) idxs with
      | .error e => .error e
      | .ok cols =>
        match addGroup ph acc (idxs.zip cols) with
        | .error e => .error e
        | .ok acc' => signalLoop ph s m a acc' rest

/-- The samples of one field: one list per detector, instrument.py 966-985 (the code stacks
them as columns).  `np.stack` raises without detectors and for different lengths. -/
def sampleField (ph : Phys F D O X G B H M P V T S Q K) (s : State F D O X G M K)
    (groups : List (List Name)) (a : SampleArgs P T S) (f : Name) :
    Except Err (List (List V)) :=
  match s.maps.get? f with
  | none => .error .key
  | some m =>
    match mapE (noiseOf ph s a f) s.detNames with
    | .error e => .error e
    | .ok start =>
      match (if a.signal then signalLoop ph s m a start groups else .ok start) with
      | .error e => .error e
      | .ok [] => .error .value
      | .ok (c :: cs) =>
        if cs.all (fun x => x.length = c.length) then .ok (c :: cs) else .error .value

/-- `maps_consistent[f]`, instrument.py 944-946. -/
def checkConsistent (s : State F D O X G M K) (f : Name) : Except Err Unit :=
  match s.consistent.get? f with
  | none => .error .key
  | some false => .error .value
  | some true => .ok ()

/-- `sample_fields`, instrument.py 904-993.  The result is a list of fields with their
samples (the code returns the array itself for one field). -/
def sampleFields [DecidableEq O] (ph : Phys F D O X G B H M P V T S Q K)
    (s : State F D O X G M K) (names : List Name) (a : SampleArgs P T S) :
    Except Err (List (Name × List (List V))) :=
  match chosenFields s names with
  | .error e => .error e
  | .ok fs =>
    match mapE (checkConsistent s) fs with
    | .error e => .error e
    | .ok _ =>
      if !a.shapeOk then .error .value
      else if a.dt.isNone && a.withNoise then .error .value
      else if !a.withNoise && !a.signal then .error .value
      else
        match cloneGroups (samePointing s) s.detNames with
        | .error e => .error e
        | .ok groups =>
          mapE (fun f => match sampleField ph s groups a f with
            | .error e => .error e
            | .ok c => .ok (f, c)) fs

/-- Everything a user does with an instrument.  `editGrid f g` stands for code outside the
class that changes, into `g`, a grid that was added with `in_place=True`: the instrument
holds a reference to it (instrument.py 694-696). -/
inductive Op (F D O X G B K Q : Type)
  | setResponse (names : List Name) (m : Mode) (fn : FnArg F) (kw : KwArg D)
  | addDetector (a : DetArgs F D O)
  | delDetectors (names : List Name)
  | addField (a : FieldArgs X G K)
  | delFields (names : List Name)
  | mapFields (names : List Name) (a : MapArgs B Q)
  | editGrid (f : Name) (g : Field X G K)

/-- The state after one operation, whether or not it raises (sampling changes nothing). -/
def step [DecidableEq F] [DecidableEq D] [LinearOrder K]
    (ph : Phys F D O X G B H M P V T S Q K) (s : State F D O X G M K) :
    Op F D O X G B K Q → State F D O X G M K
  | .setResponse names m fn kw => (setResponse ph s names m fn kw).1
  | .addDetector a => (addDetector ph s a).1
  | .delDetectors names => (delDetectors s names).1
  | .addField a => (addField s a).1
  | .delFields names => (delFields s names).1
  | .mapFields names a => (mapFields ph s names a).1
  | .editGrid f g => { s with fields := if s.fields.has f then s.fields.set f g else s.fields }

/-- A history of operations. -/
def run [DecidableEq F] [DecidableEq D] [LinearOrder K]
    (ph : Phys F D O X G B H M P V T S Q K) (s : State F D O X G M K)
    (ops : List (Op F D O X G B K Q)) : State F D O X G M K :=
  ops.foldl (step ph) s

/-- The choices made when an instrument is created, instrument.py 54-66. -/
structure Setup (F D K : Type) where
  spatial : Default F D
  spectral : Default F D
  noise : Default F D
  bestSpatial : Option K
  bestSpectral : Option K
  spatialUnit : Option String
  spectralUnit : Option String
  fluxUnit : Option String

/-- A new instrument, instrument.py 137-179 (after its checks). -/
def fresh (x : Setup F D K) : State F D O X G M K where
  detectors := []
  detNames := []
  detCounter := 0
  fields := []
  fieldProps := []
  fieldNames := []
  fieldCounter := 0
  consistent := []
  maps := []
  spatial := x.spatial
  spectral := x.spectral
  noise := x.noise
  bestSpatial := x.bestSpatial
  bestSpectral := x.bestSpectral
  spatialUnit := x.spatialUnit
  spectralUnit := x.spectralUnit
  fluxUnit := x.fluxUnit

end

end Verif.Inst
