import Mathlib.Data.List.Sort
import Verif.Model.Handler

/-!
# Model of `simim/lightcone/lchandler.py`: volumes, statistics in redshift bins, iterators

Simplifications: numbers are exact; the comoving volume `cosmo.comoving_volume` and `np.pi` are
parameters; redshifts, angles and aspect ratios are numbers (no units).
-/

namespace Verif.LCH

open Verif.Handler (Name V Err State Arg)

/-- The attribute `shape` of a lightcone: cross sections of `LCMaker`, shapes of `SphereMaker`. -/
inductive LCShape where
  | circle | box | sphere | hemisphere | quarter | eighth
  /-- Any other text (only as an argument). -/
  | other
  deriving DecidableEq

/-- The metadata of a lightcone used here.  Light spheres have no `'open angle'` and no
`'aspect ratio'` (`lcmaker.py:972-996`). -/
structure Meta (K : Type) where
  shape : LCShape
  zmin : K
  zmax : K
  angle : Option K
  aspect : Option K
  h : K
  inH : Bool            -- default_in_h_units

/-- The arguments of `volume`. -/
structure VolArgs (K : Type) where
  zmin : Option K := none
  zmax : Option K := none
  shape : Option LCShape := none
  angle : Option K := none
  aspect : Option K := none
  inH : Option Bool := none

variable {K : Type} [Field K] [LinearOrder K]

/-- `x if x is not None else metadata[key]`. -/
def orMeta (x : Option K) (m : Option K) : Except Err K :=
  match x with
  | some x => .ok x
  | none =>
    match m with
    | some m => .ok m
    | none => .error .keyError

/-- The checks of the region, `lchandler.py:148-160`. -/
def volCheck (m : Meta K) (shape : LCShape) (angle aspect : K) : Except Err Unit :=
  if ¬ (shape = .box ∨ shape = .circle) then .error .valueError               -- lines 147-148
  else if shape = m.shape ∨ m.shape = .box then
    match m.angle, m.aspect with
    | some a, some r =>
      if a < angle then .error .valueError                                    -- lines 151-152
      else if a * r < angle * aspect then .error .valueError                  -- lines 153-154
      else .ok ()
    | _, _ => .error .keyError
  else if shape = .box ∧ m.shape = .circle then
    match m.angle with
    | none => .error .keyError
    | some a =>
      if a < angle ^ 2 + (angle * aspect) ^ 2 then .error .valueError         -- lines 157-160
      else .ok ()
  else .ok ()

/-- The solid angle, `lchandler.py:163-166`. -/
def solidAngle (pi : K) (shape : LCShape) (angle aspect : K) : K :=
  if shape = .box then angle * angle * aspect else pi * (angle / 2) ^ 2

/-- `volume`, `lchandler.py:99-175`; `vc` is `cosmo.comoving_volume`. -/
def volume (vc : K → K) (pi : K) (m : Meta K) (a : VolArgs K) : Except Err K :=
  let inH := a.inH.getD m.inH
  let z1 := a.zmin.getD m.zmin
  let z2 := a.zmax.getD m.zmax
  let shape := a.shape.getD m.shape
  match orMeta a.angle m.angle with                                           -- lines 135-136
  | .error e => .error e
  | .ok angle =>
    match orMeta a.aspect m.aspect with                                       -- lines 137-138
    | .error e => .error e
    | .ok aspect =>
      if z1 < m.zmin then .error .valueError                                  -- lines 141-142
      else if m.zmax < z2 then .error .valueError                             -- lines 143-144
      else
        match volCheck m shape angle aspect with
        | .error e => .error e
        | .ok () =>
          let v := (vc z2 - vc z1) * solidAngle pi shape angle aspect / (4 * pi)
          .ok (if inH then v * m.h ^ 3 else v)

/-! ## Statistics in redshift bins -/

/-- The optional arguments of `eval_stat_evo`. -/
structure EvoArgs (K : Type) where
  kwargs : List Name
  remap : PyDict Name Name := []
  zminKw : Bool := false
  zmaxKw : Bool := false
  volumeKw : Bool := false
  giveH : Option Bool := none

/-- The keywords set before the statistic is evaluated in a bin, `lchandler.py:196-203`; `vol` is
`self.volume` of the bin. -/
def setKws (a : EvoArgs K) (vol : K → K → Except Err K) (lo hi : K) (other : PyDict Name (Arg K)) :
    PyDict Name (Arg K) × Except Err Unit :=
  let o1 := if a.zminKw then other.set "zmin" (.scalar lo) else other
  let o2 := if a.zmaxKw then o1.set "zmax" (.scalar hi) else o1
  if a.volumeKw then
    match vol lo hi with
    | .error e => (o2, .error e)
    | .ok v => (o2.set "volume" (.scalar v), .ok ())
  else (o2, .ok ())

/-- The loop of `eval_stat_evo` over the bins, `lchandler.py:189-213`. -/
def evoLoop {α : Type} (f : PyDict Name (Arg K) → Except Err α) (a : EvoArgs K) (giveH : Bool)
    (vol : K → K → Except Err K) :
    List (K × K) → State K → PyDict Name (Arg K) →
    (State K × PyDict Name (Arg K)) × Except Err (List α)
  | [], s, o => ((s, o), .ok [])
  | (lo, hi) :: rest, s, o =>
    match Handler.setRange s (some "redshift") (some lo) (some hi) true none with
    | (s1, .error e) => ((s1, o), .error e)
    | (s1, .ok ()) =>
      match setKws a vol lo hi o with
      | (o1, .error e) => ((s1, o1), .error e)
      | (o1, .ok ()) =>
        match Handler.evalStat s1 f a.kwargs a.remap o1 false (some giveH) with
        | .error e => ((s1, o1), .error e)
        | .ok v =>
          match evoLoop f a giveH vol rest s1 ((o1.erase "zmin").erase "zmax") with  -- lines 212-213
          | (r, .error e) => (r, .error e)
          | (r, .ok vs) => (r, .ok (v :: vs))

/-- `eval_stat_evo`, `lchandler.py:177-218`.  `other` is the dictionary `other_kws`, which is
changed in place. -/
def evalStatEvo {α : Type} (s : State K) (bins : List K)
    (f : PyDict Name (Arg K) → Except Err α) (a : EvoArgs K) (vol : Bool → K → K → Except Err K)
    (other : PyDict Name (Arg K)) :
    (State K × PyDict Name (Arg K)) × Except Err (List K × List α) :=
  let giveH := a.giveH.getD s.inH
  let bins := bins.insertionSort (· ≤ ·)                                      -- line 184
  match evoLoop f a giveH (vol giveH) (bins.zip bins.tail) s other with
  | (r, .error e) => (r, .error e)
  | ((s1, o), .ok vals) => (({ s1 with active := s.active }, o), .ok (bins, vals))  -- line 216

/-! ## Iterators -/

/-- The attributes of an `LCHandler` that `LCIterator` compares (`lchandler.py:554`); `cosmo` is a
number standing for the cosmology. -/
structure Attrs (K : Type) where
  cosmo : ℕ
  info : Meta K

/-- `open_angle` and `aspect_ratio` are attributes only of lightcones with a circular or
rectangular cross section (`lchandler.py:92-97`). -/
def hasField (m : Meta K) : Bool := decide (m.shape = .circle) || decide (m.shape = .box)

/-- One attribute compared by `LCIterator`: `none` if the attribute is missing. -/
def compared (x : Attrs K) : List (Option (ℕ ⊕ Option K)) :=
  [some (.inl x.cosmo),
   if hasField x.info then some (.inr x.info.angle) else none,
   if hasField x.info then some (.inr x.info.aspect) else none,
   some (.inr (some x.info.zmin)), some (.inr (some x.info.zmax))]

/-- The comparison of one attribute, `lchandler.py:555-561`; the result says whether all are
equal. -/
def compareAttr (ref : Option (ℕ ⊕ Option K)) (require : Bool) :
    List (Option (ℕ ⊕ Option K)) → Bool → Except Err Bool
  | [], ok => .ok ok
  | x :: rest, ok =>
    match ref, x with
    | none, _ => .error .attributeError
    | some _, none => .error .attributeError
    | some r, some x =>
      if x ≠ r then
        if require then .error .valueError else compareAttr ref require rest false
      else compareAttr ref require rest ok

/-- The attributes one after the other, `lchandler.py:554-561`. -/
def compareAll (ref : List (Option (ℕ ⊕ Option K))) (others : List (List (Option (ℕ ⊕ Option K))))
    (require : Bool) : List ℕ → Bool → Except Err Bool
  | [], ok => .ok ok
  | k :: ks, ok =>
    match ref[k]? with
    | none => .error .indexError
    | some none => .error .attributeError                                     -- setattr/getattr
    | some (some r) =>
      match compareAttr (some r) require (others.map (fun o => (o[k]?).getD none)) ok with
      | .error e => .error e
      | .ok ok' => compareAll ref others require ks ok'

/-- `LCIterator.__init__`, `lchandler.py:553-561`: the value of `is_consistent`. -/
def iterInit (lcs : List (Attrs K)) (require : Bool) : Except Err Bool :=
  match lcs with
  | [] => .error .indexError                                                  -- line 553
  | r :: rest => compareAll (compared r) (rest.map compared) require (List.range 5) true

/-- `LCIterator.volume`, `lchandler.py:583-623`, without `number`. -/
def iterVolume (vc : K → K) (pi : K) (lcs : List (Attrs K)) (consistent : Bool) (a : VolArgs K) :
    Except Err K :=
  if consistent then
    match lcs with
    | [] => .error .indexError
    | r :: _ => volume vc pi r.info a
  else .error .valueError

end Verif.LCH
