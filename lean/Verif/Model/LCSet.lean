import Verif.Model.LCFile

/-!
# Model of sets of lightcones: names in use and lists of files

`GenericLCMaker.__init__` (`simim/lightcone/lcmaker.py:65-85`), `GenericLCMaker.get_LCIterator`
(`lcmaker.py:343-354`) and the choice of files in `LCIterator.__init__`
(`simim/lightcone/lchandler.py:530-534`).

Simplifications: the simulation is known and its folder for lightcones exists; folders contain
only files of lightcones.
-/

namespace Verif.LC

open Verif.Sim (Err SnapMeta)

/-- The argument `overwrite`. -/
inductive Overwrite where
  | check | yes | no
  /-- Any other value. -/
  | other
  deriving DecidableEq

/-- The sets of lightcones of a simulation, by name. -/
abbrev Sets (K : Type) := String → Option (Folder K)

/-- The end of `__init__`: a maker, an exception, or waiting for an answer. -/
inductive InitResult where
  | ready
  | error (e : Err)
  | waiting
  deriving DecidableEq

/-- The loop that asks whether to proceed, `lcmaker.py:74-82`. -/
def askProceed : List String → InitResult
  | [] => .waiting
  | a :: rest =>
    if a = "y" then .ready
    else if a = "n" then .error .valueError
    else askProceed rest

variable {K : Type}

/-- `GenericLCMaker.__init__`, `lcmaker.py:65-86`. -/
def initMaker (name : String) (ow : Overwrite) (answers : List String) (sets : Sets K) :
    Sets K × InitResult :=
  if ow = .other then (sets, .error .valueError)                       -- lines 65-66
  else
    match sets name, ow with
    | some _, .check => (sets, askProceed answers)                     -- lines 71-81
    | some _, .no => (sets, .error .valueError)                        -- lines 82-83
    | some _, _ => (sets, .ready)
    | none, _ => (Function.update sets name (some (fun _ => none)), .ready)   -- lines 84-85

/-- The numbers of the lightcones an `LCIterator` opens when none are given,
`lchandler.py:531-533`. -/
def listed (d : Folder K) : Set ℕ := {i | (d i).isSome}

/-- The numbers of the lightcones `get_LCIterator` asks for, `lcmaker.py:354`. -/
def iterNumbers (n : ℕ) : Set ℕ := {i | i < n}

variable [Field K] [LinearOrder K] [FloorRing K]

/-- Making a maker and building lightcones with it, `lcmaker.py:65-86, 617-846`. -/
def initAndBuild (name : String) (ow : Overwrite) (answers : List String) (st : Settings K)
    (skies : List (Sky K)) (metas : List (SnapMeta K)) (data : ℕ → SnapData K) (bins : List K)
    (sets : Sets K) : Sets K × InitResult :=
  match initMaker name ow answers sets with
  | (sets', .ready) =>
    match sets' name with
    | none => (sets', .error .fileNotFound)
    | some d =>
      match exec (buildPlan st skies metas data bins) d with
      | (d', .ok ()) => (Function.update sets' name (some d'), .ready)
      | (d', .error e) => (Function.update sets' name (some d'), .error e)
  | (sets', r) => (sets', r)

end Verif.LC
