import Verif.Model.Format
import Verif.Model.SimAll

/-!
# Model of opening a formatted file (`simim/siminterface/simhandler.py:178-259`)

This joins the two halves of the model: the file written by `SimCatalogs.format`
(`Verif/Model/Format.lean`) is what `SimHandler` reads (`Verif/Model/SimAll.lean`).

Simplifications: the reader's model has one number per halo, so a file with a dataset that has rows
of numbers is outside it (`none`); the table of mass cuts is left out, as the reader of properties
ignores it (`_handlers.py:43, 47`); numbers are exact.
-/

namespace Verif.Format

open Verif.Handler (Dataset V)
open Verif.SimAll (Sim openSim)

variable {K : Type}

/-- A dataset as `file[groupname][name][:]` gives it, `_handlers.py:161-164`.  Without halos there
are no rows, whatever the shape. -/
def readCol : Col K → Option (List (V K))
  | .one v => some (v.map some)
  | .many [] => some []
  | .many (_ :: _) => none

/-- A dataset with its attributes, `_handlers.py:44-45`; `format` does not write the attribute
`userdefined`. -/
def readData (D : Data K) : Option (Dataset K) :=
  (readCol D.data).map (fun v => ⟨v, D.units, D.hdep, false⟩)

/-- The values of a dictionary, each read. -/
def readAll {κ α β : Type} (f : α → Option β) : PyDict κ α → Option (PyDict κ β)
  | [] => some []
  | (k, x) :: rest =>
    match f x, readAll f rest with
    | some y, some ys => some ((k, y) :: ys)
    | _, _ => none

/-- A group `Snapshot i` as a handler reads it, `_handlers.py:40-49`. -/
def readGroup (g : Group K) : Option (PyDict Handler.Name (Dataset K)) := readAll readData g.data

/-- Reading `keys`, `key_units` and `key_h_dependence` from the first group,
`simhandler.py:245-256`: there must be one, and its datasets must have their attributes. -/
def firstKeys (file : File K) : Except Handler.Err Unit :=
  match firstGroup file.groups with
  | none => .error .indexError
  | some g =>
    if g.data.all (fun p => p.2.units.isSome && p.2.hdep.isSome) then .ok ()
    else .error .keyError

/-- `SimHandler.__init__` on a formatted file, `simhandler.py:216-259`; `h` and `boxH` are the
attributes `cosmo_h` and `box_edge`. -/
def openFile (file : File K) (h boxH : K) (initSnaps inH : Bool) :
    Option (Except Handler.Err (Sim K)) :=
  match file.metas with
  | none => some (.error .keyError)                                       -- line 220
  | some l =>
    match readAll readGroup file.groups with
    | none => none
    | some disk =>
      if l = [] then some (.error .indexError)                            -- line 226
      else
        match firstKeys file with                                         -- lines 245-256
        | .error e => some (.error e)
        | .ok () => some (openSim (l.map (fun m => (m.index, m.redshift))) disk h boxH initSnaps inH)

end Verif.Format
