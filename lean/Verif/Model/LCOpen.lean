import Verif.Model.LCSource
import Verif.Model.Handler

/-!
# Model of `LCHandler.__init__` (`simim/lightcone/lchandler.py:29-97`)

This joins two parts of the model: the files written by `LCMaker` (`Verif/Model/LCFile.lean`) are
what a `Handler` (`Verif/Model/Handler.lean`) reads.

Simplifications: the attributes of a dataset, which `LCMaker` sets in the same step in which it
creates the dataset, are a function of its name and of the simulation; the attributes of the file
are all there (`lcmaker.py:620-648`); names come in the order of creation instead of alphabetically.
-/

namespace Verif.LC

open Verif.Format (File firstGroup)
open Verif.Handler (Name Dataset State)

variable {K : Type}

/-- `key_units` and `key_h_dependence` of the simulation, `simhandler.py:245-256`. -/
def simAttr (file : File K) (key : String) : Option (String × ℤ) :=
  match firstGroup file.groups with
  | none => none
  | some g =>
    match g.data.get? key with
    | none => none
    | some D =>
      match D.units, D.hdep with
      | some u, some e => some (u, e)
      | _, _ => none

/-- The attributes `units` and `h dependence` of a dataset of a lightcone, `lcmaker.py:168-174,
271-277, 787-797`. -/
def coneAttr (sim : String → Option (String × ℤ)) (key : String) : Option (String × ℤ) :=
  if key = "ra" ∨ key = "dec" then some ("radians", 0)
  else if key = "redshift" then some ("None", 0)
  else if key = "masscheck" then sim "mass"
  else sim key

/-- The group `'Lightcone Full'` as a handler reads it, `_handlers.py:40-49`. -/
def coneGroup (sim : String → Option (String × ℤ)) (full : PyDict String (List K)) :
    PyDict Name (Dataset K) :=
  full.map (fun q => (q.1, ⟨q.2.map some, (coneAttr sim q.1).map (·.1), (coneAttr sim q.1).map (·.2),
    false⟩))

/-- `LCHandler.__init__`, `lchandler.py:57-97`, for a file that may not exist; `more` are the numbers
added to `extra_props` (lines 86-97).  The flags `status_basic`, `status_extra_initialized` and
`status_extra_completed` are not looked at. -/
def openCone (sim : String → Option (String × ℤ)) (f : Option (LCFile K)) (h : K) (inH : Bool)
    (more : PyDict Name K) : Except Handler.Err (State K) :=
  match f with
  | none => .error .valueError                                            -- lines 66-67
  | some f =>
    match f.full with
    | none => .error .keyError                                            -- _handlers.py:43
    | some full =>
      match Handler.init (coneGroup sim full) h inH with                  -- line 70
      | .error e => .error e
      | .ok s => .ok { s with extra := more.foldl (fun d q => d.set q.1 q.2) s.extra }

end Verif.LC
