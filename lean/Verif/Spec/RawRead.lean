import Verif.Model.RawRead
import Verif.Spec.Loaders

/-!
# Vocabulary for statements about reading downloaded group catalogues
-/

namespace Verif.Raw.Spec

open Verif.Load (Chunk)

variable {K : Type}

/-- The name of the file with number `j` of snapshot `s`, as the servers of the two projects name them. -/
def published (sim : IllSim) (dir : Path) (s j : ℕ) : Path :=
  match sim with
  | .illustris => illFile dir "groups_".toList s j
  | .tng => illFile dir "fof_subhalo_tab_".toList s j

/-- The other project. -/
def other : IllSim → IllSim
  | .illustris => .tng
  | .tng => .illustris

/-- All the `n` files of a snapshot are there and complete. -/
def AllThere (sim : IllSim) (dir : Path) (s n : ℕ) (d : Disk) : Prop :=
  ∀ j < n, d (published sim dir s j) = some .whole

/-- The folder has no files of the other project. -/
def Alone (sim : IllSim) (dir : Path) (s : ℕ) (d : Disk) : Prop :=
  ∀ j, d (published (other sim) dir s j) = none

/-- The disk after several calls of `download()`; the servers may answer differently in each. -/
def downloads (sim : IllSim) (dir : Path) (files : Option ℕ) (snaps : List ℕ) :
    List (ℕ → List (List (ℕ × File))) → Disk → Disk
  | [], d => d
  | runs :: rest, d =>
    downloads sim dir files snaps rest (after d (illDownload dir sim.fname files runs snaps false d))

/-- The objects of the snapshot, file after file. -/
def published_chunks (content : Path → Content K) (sim : IllSim) (dir : Path) (s n : ℕ) : List (Chunk K) :=
  (List.range n).map (fun j => (content (published sim dir s j)).chunk)

end Verif.Raw.Spec
