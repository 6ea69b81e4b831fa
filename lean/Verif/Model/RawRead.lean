import Verif.Model.RawFiles
import Verif.Model.Loaders

/-!
# Model of how the group catalogues of Illustris and TNG are found on the disk
(`simim/siminterface/_illustris_datahandling.py:12-21`, `39-44`, `66-67`; `simim/siminterface/illustris.py:303-306`, `331-333`)

`basePath` is the folder `raw` of the simulation (`illustris.py:331`, with a slash at its end).
A file that is not complete, or that does not exist, cannot be opened by h5py.
-/

namespace Verif.Raw

open Verif.Load (Cat Chunk)

/-- `_gcPath`, `_illustris_datahandling.py:12-21`. -/
def gcPath (dir : Path) (s j : ℕ) (d : Disk) : Path :=
  if (d (illFile dir "groups_".toList s j)).isSome then illFile dir "groups_".toList s j
  else illFile dir "fof_subhalo_tab_".toList s j

/-- Which simulations there are, `illustris.py:303-306`. -/
inductive IllSim where
  | illustris
  | tng
  deriving DecidableEq

/-- `raw_fname`, `illustris.py:303-306`. -/
def IllSim.fname : IllSim → Path
  | .illustris => "groups_".toList
  | .tng => "fof_subhalo_tab_".toList

/-- What a complete file holds: the part of the header that is the same in all files, and its own objects. -/
structure Content (K : Type) where
  total : ℕ
  numFiles : ℕ
  offsets : List ℤ
  chunk : Chunk K

/-- `h5py.File(_gcPath(basePath, snapNum, j), 'r')`, `_illustris_datahandling.py:39` and `67`. -/
def openChunk {K : Type} (content : Path → Content K) (dir : Path) (s j : ℕ) (d : Disk) : Option (Content K) :=
  match d (gcPath dir s j d) with
  | some .whole => some (content (gcPath dir s j d))
  | _ => none

/-- The group catalogue as `_loadObjects` reads it, lines 39-44 and 66-67: the header of file 0 and the files with the
numbers below `NumFiles`. -/
def catOnDisk {K : Type} (content : Path → Content K) (dir : Path) (s : ℕ) (d : Disk) : Cat K :=
  match openChunk content dir s 0 d with
  | none => ⟨0, 0, [], []⟩
  | some c => ⟨c.total, c.numFiles, c.offsets,
      (List.range c.numFiles).map (fun j => (openChunk content dir s j d).map (·.chunk))⟩

end Verif.Raw
