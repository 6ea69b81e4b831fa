import Verif.Model.RawFiles
import Mathlib.Data.List.Sort
import Mathlib.Data.List.Dedup

/-!
# Model of opening the catalogues of a simulation and of its metadata files
(`simim/siminterface/_rawsiminterface.py:270-298`; `simim/siminterface/universemachine.py:194-201`, `309-382`;
`simim/siminterface/uchuu.py:176-189`, `263-330`; `simim/siminterface/illustris.py:293-300`, `411-489`)

The metadata are two files, `meta.npy` (about the simulation) and `meta_snaps.npy` (one row per snapshot); a row is
represented by the number of its snapshot (its other values are modelled in `Verif.Model.Snapshot`).  Saving a file
takes two steps, as in `Verif.Model.RawFiles`.
-/

namespace Verif.Raw

/-- The two metadata files: `meta.npy`, and `meta_snaps.npy` with the snapshots it describes. -/
structure Metas where
  sim : Option File
  rows : Option (Option (List ℕ))          -- `some none`: an incomplete file
  deriving DecidableEq

/-- A step of saving the metadata. -/
inductive MStep where
  | startSim
  | finishSim
  | startRows
  | finishRows (l : List ℕ)
  deriving DecidableEq

/-- The files after a step. -/
def MStep.apply (m : Metas) : MStep → Metas
  | .startSim => { m with sim := some .part }
  | .finishSim => { m with sim := some .whole }
  | .startRows => { m with rows := some none }
  | .finishRows l => { m with rows := some (some l) }

/-- The files after some steps. -/
def metasAfter (m : Metas) (steps : List MStep) : Metas := steps.foldl MStep.apply m

/-- Exceptions. -/
inductive CErr where
  | fileNotFound
  | unreadable
  | index
  deriving DecidableEq

/-- A catalogue object: its snapshots and the snapshots of the metadata it holds. -/
structure Catalog where
  snaps : List ℕ
  metadata : Option (List ℕ)
  deriving DecidableEq

/-- `np.intersect1d(snaps, allsnaps)`, line 282: the common values, each once, in increasing order. -/
def commonSnaps (asked all : List ℕ) : List ℕ := (all.dedup.filter (fun n => decide (n ∈ asked))).insertionSort (· ≤ ·)

/-- `SimCatalogs.__init__`, `_rawsiminterface.py:273-298`; `none` is 'all'. -/
def openCatalog (all : List ℕ) (asked : Option (List ℕ)) (m : Metas) : Except CErr Catalog :=
  let snaps := commonSnaps (asked.getD all) all
  match m.sim with
  | none => .ok ⟨snaps, none⟩                                    -- lines 287-292
  | some .part => .error .unreadable                             -- line 294
  | some .whole =>
    match m.rows with                                            -- line 295
    | none => .error .fileNotFound
    | some none => .error .unreadable
    | some (some l) => .ok ⟨snaps, some l⟩

/-- `download_meta`, `universemachine.py:309-382`, `uchuu.py:263-330`, `illustris.py:411-489`: the steps and what it
raises; `all` are the snapshots the simulation has (`numbers`), `snaps` those of the catalogue.  The requests to the web
site of Illustris are assumed to succeed. -/
def downloadMeta (all snaps : List ℕ) (redownload : Bool) (m : Metas) : List MStep × Except CErr Unit :=
  if redownload = false ∧ m.sim.isSome = true then ([], .ok ())
  else
    let rows := all.filter (fun n => decide (n ∈ snaps))
    if rows = [] then ([], .error .index)                       -- `snap_meta_classes[0]`
    else ([.startSim, .finishSim, .startRows, .finishRows rows], .ok ())

/-- The snapshots reported as missing when the catalogue is opened, `universemachine.py:195-201`. -/
def umReport (dir : Path) (name : ℕ → Path) (snaps : List ℕ) (d : Disk) : List ℕ :=
  snaps.filter (fun s => (d (rawFile dir (name s))).isNone)

/-- `uchuu.py:177-189`. -/
def uchuuReport (dir : Path) (name : ℕ → Path) (snaps : List ℕ) (d : Disk) : List ℕ :=
  snaps.filter (fun s => [1, 2, 3].any (fun df => (d (uchuuFile dir (name s) df)).isNone))

end Verif.Raw
