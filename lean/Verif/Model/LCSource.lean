import Verif.Model.Format
import Verif.Model.LCFile
import Verif.Model.LCSphere

/-!
# Model of what `LCMaker` reads from a formatted file (`simim/lightcone/lcmaker.py:85-115, 117-225, 542-846`)

This joins two parts of the model: the file written by `SimCatalogs.format` (`Verif/Model/Format.lean`)
is the source of the lightcones (`Verif/Model/LCFile.lean`).

Simplifications: a dataset with rows of numbers, and datasets of different lengths, are outside the
model (`none`); numbers are exact.
-/

namespace Verif.LC

open Verif.Sim (Err SnapMeta)
open Verif.Format (Col File firstGroup)

variable {K : Type}

/-- `snap_grp[name]`, `lcmaker.py:673, 682-684`. -/
def column (g : Format.Group K) (name : String) : Option (Except Err (List K)) :=
  match g.data.get? name with
  | none => some (.error .keyError)
  | some D =>
    match D.data with
    | .one v => some (.ok v)
    | .many _ => none

/-- The halos, given their masses and positions, `lcmaker.py:673-684`. -/
def haloList : List K → List K → List K → List K → Option (List (Halo K))
  | [], [], [], [] => some []
  | m :: ms, x :: xs, y :: ys, z :: zs =>
    match haloList ms xs ys zs with
    | none => none
    | some l => some (⟨m, ![x, y, z]⟩ :: l)
  | _, _, _, _ => none

/-- Go on with a column that was read. -/
def withColumn {α : Type} (c : Option (Except Err (List K))) (f : List K → Option (Except Err α)) :
    Option (Except Err α) :=
  match c with
  | none => none
  | some (.error e) => some (.error e)
  | some (.ok l) => f l

/-- What is read of a snapshot: `sim_file[snap_name]`, its table of mass cuts (`get_mass_index`) and
the columns `mass`, `pos_x`, `pos_y`, `pos_z`, `lcmaker.py:670-684`, `simhandler.py:411`. -/
def source (file : File K) (i : ℕ) : Option (Except Err (SnapData K)) :=
  match file.groups.get? i with
  | none => some (.error .keyError)                                        -- line 670
  | some g =>
    match g.cuts with
    | none => some (.error .keyError)                                      -- simhandler.py:411
    | some t =>
      withColumn (column g "mass") (fun ms =>
        withColumn (column g "pos_x") (fun xs =>
          withColumn (column g "pos_y") (fun ys =>
            withColumn (column g "pos_z") (fun zs =>
              match haloList ms xs ys zs with
              | none => none
              | some l => some (.ok ⟨t, l⟩)))))

/-- The columns a snapshot has for `add_properties`, `lcmaker.py:188, 202`. -/
def catalogueOf (file : File K) : Catalogue K := fun i =>
  match file.groups.get? i with
  | none => []
  | some g => g.data.filterMap (fun q =>
      match q.2.data with
      | .one v => some (q.1, v)
      | .many _ => none)

/-- `snap_keys_all`, `lcmaker.py:95`, `simhandler.py:246-248`. -/
def keysOf (file : File K) : List String :=
  match firstGroup file.groups with
  | none => []
  | some g => g.data.keys

variable [Field K] [LinearOrder K] [FloorRing K]

/-- The steps for one snapshot, `lcmaker.py:657-834`, given what is read of it. -/
def snapPlan (st : Settings K) (skies : List (Sky K)) (s : SnapMeta K) (dat : SnapData K) :
    List (Step K) :=
  match loaded st dat with
  | .error e => [.fail e]
  | .ok halos => skies.zipIdx.flatMap (fun q =>
      match snapSlices st q.1 s halos with
      | .error e => [.fail e]
      | .ok slices => slices.map (fun rows => .eff q.2 (.append rows)))

/-- The loop over the snapshots, `lcmaker.py:653-834`. -/
def fillFrom (st : Settings K) (skies : List (Sky K)) (file : File K) :
    List (SnapMeta K) → Option (List (Step K))
  | [] => some []
  | s :: rest =>
    match source file s.index with
    | none => none
    | some (.error e) => some [.fail e]
    | some (.ok dat) =>
      match fillFrom st skies file rest with
      | none => none
      | some later => some (snapPlan st skies s dat ++ later)

/-- The `SimHandler` an `LCMaker` makes, `lcmaker.py:92-95`: the metadata must be there and not be
empty, there must be a group, and its datasets must have their attributes (`simhandler.py:220-256`). -/
def makerMetas (file : File K) : Except Err (List (SnapMeta K)) :=
  match file.metas with
  | none => .error .keyError
  | some metas =>
    if metas.length = 0 then .error .indexError
    else
      match firstGroup file.groups with
      | none => .error .indexError
      | some g =>
        if g.data.all (fun p => p.2.units.isSome && p.2.hdep.isSome) then .ok metas
        else .error .keyError

/-- Making an `LCMaker` and calling `build_lightcones`, `lcmaker.py:92-95, 542-846`. -/
def buildFrom (file : File K) (st : Settings K) (skies : List (Sky K)) (bins : List K) :
    Option (List (Step K)) :=
  match makerMetas file with
  | .error e => some [.fail e]
  | .ok metas =>
    match fillFrom st skies file (snapsUsed st metas) with
    | none => none
    | some l => some (initPlan skies bins ++ l ++ finishPlan skies)

/-- The snapshot can be read. -/
def readable (file : File K) (i : ℕ) : Bool :=
  match source file i with
  | some (.ok _) => true
  | _ => false

/-- What is read of a snapshot that can be read (nothing for others, where this is not used). -/
def sourceOf (file : File K) (i : ℕ) : SnapData K :=
  match source file i with
  | some (.ok dat) => dat
  | _ => ⟨[], []⟩

/-- `add_properties` of the `LCMaker` that built `n` lightcones from the file, `lcmaker.py:117-225`, if
all the snapshots used can be read. -/
def addFrom (file : File K) (st : Settings K) (store : K → K) (n : ℕ) (keys : List String)
    (d : Folder K) : Option (List (Step K)) :=
  match makerMetas file with
  | .error _ => none
  | .ok metas =>
    if (snapsUsed st metas).all (fun s => readable file s.index) then
      some (addPlan st metas (sourceOf file) (catalogueOf file) store (keysOf file) (some n) keys d)
    else none

/-- The loop over snapshots for one light sphere, `lcmaker.py:1001-1134`, reading the file. -/
def sphereLoopFrom (st : SphereSettings K) (sky : Sky K) (file : File K) :
    List (SnapMeta K) → Cone K → Option (Except Err (Cone K))
  | [], c => some (.ok c)
  | s :: rest, c =>
    match source file s.index with                                         -- lines 1019-1038
    | none => none
    | some (.error e) => some (.error e)
    | some (.ok dat) =>
      match loaded st.toSettings dat with
      | .error e => some (.error e)
      | .ok halos => sphereLoopFrom st sky file rest (c.append (sphereRows st sky s halos))

/-- Making an `LCMaker` and calling `build_lightcones` for light spheres, `lcmaker.py:92-95,
928-1146`: one of the spheres. -/
def sphereFrom (file : File K) (st : SphereSettings K) (sky : Sky K) (bins : List K) :
    Option (Except Err (Cone K)) :=
  match makerMetas file with
  | .error e => some (.error e)
  | .ok metas =>
    sphereLoopFrom st sky file (snapsUsed st.toSettings metas) ⟨[], bins.map (fun z => (z, 0))⟩

end Verif.LC
