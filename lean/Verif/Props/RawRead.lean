import Verif.Spec.RawRead
import Verif.Props.Downloads
import Verif.Props.Loaders

/-!
# C106: downloaded group catalogues are found and read
-/

set_option linter.unusedSectionVars false

namespace Verif.Raw

open Verif.Raw.Spec
open Verif.Load (Cat Chunk illustrisLoader loadObjects loadChunks)
open Verif.Load.Spec (Sound count inOrder rows)
open Verif.Sim (Err)

theorem fname_published (sim : IllSim) (dir : Path) (s j : ℕ) :
    illFile dir sim.fname s j = published sim dir s j := by
  cases sim <;> rfl

theorem gcPath_eq (sim : IllSim) (dir : Path) (s j : ℕ) (d : Disk) (ha : Alone sim dir s d) :
    d (gcPath dir s j d) = d (published sim dir s j) ∧
      (d (published sim dir s j) ≠ none → gcPath dir s j d = published sim dir s j) := by
  have h := ha j
  cases sim with
  | illustris =>
    simp only [other, published] at h ⊢
    unfold gcPath
    generalize illFile dir "groups_".toList s j = A at *
    generalize illFile dir "fof_subhalo_tab_".toList s j = B at *
    rcases e : d A with _ | c
    · simp [h]
    · simp [e]
  | tng =>
    simp only [other, published] at h ⊢
    unfold gcPath
    generalize illFile dir "groups_".toList s j = A at *
    generalize illFile dir "fof_subhalo_tab_".toList s j = B at *
    simp [h]

/-- The loader looks for every file where `download` puts it, and for a file that exists finds its own name. -/
theorem C106_ill_found (sim : IllSim) (dir : Path) (s j : ℕ) (d : Disk) (ha : Alone sim dir s d)
    (h : d (published sim dir s j) ≠ none) :
    gcPath dir s j d = published sim dir s j ∧ illFile dir sim.fname s j = published sim dir s j :=
  ⟨(gcPath_eq sim dir s j d ha).2 h, fname_published sim dir s j⟩

variable {K : Type}

theorem open_whole (content : Path → Content K) (sim : IllSim) (dir : Path) (s j : ℕ) (d : Disk)
    (ha : Alone sim dir s d) (h : d (published sim dir s j) = some .whole) :
    openChunk content dir s j d = some (content (published sim dir s j)) := by
  have h1 := (gcPath_eq sim dir s j d ha).2 (by simp [h])
  unfold openChunk
  rw [h1, h]

theorem open_missing (content : Path → Content K) (sim : IllSim) (dir : Path) (s j : ℕ) (d : Disk)
    (ha : Alone sim dir s d) (h : d (published sim dir s j) ≠ some .whole) :
    openChunk content dir s j d = none := by
  have h1 := (gcPath_eq sim dir s j d ha).1
  unfold openChunk
  rw [h1]
  rcases e : d (published sim dir s j) with _ | c
  · rfl
  · cases c with
    | part => rfl
    | whole => exact absurd e h

/-- If all the files of a snapshot are complete, the loader gives for each field the values of all objects, file after
file in the order of their numbers. -/
theorem C106_ill_read [Zero K] (content : Path → Content K) (sim : IllSim) (dir : Path) (s n : ℕ) (d : Disk)
    (fields : List Load.Name) (hlen : 1 < fields.length) (hnd : fields.Nodup)
    (ha : Alone sim dir s d) (hw : AllThere sim dir s n d) (hn : 0 < n)
    (total : ℕ) (offsets : List ℤ) (h0 : 0 < total)
    (hhead : ∃ c, content (published sim dir s 0) = ⟨total, n, offsets, c⟩)
    (hs : Sound ⟨total, n, offsets, (published_chunks content sim dir s n).map some⟩
      (published_chunks content sim dir s n) fields)
    (hc : count (published_chunks content sim dir s n) = total) :
    ∃ r, illustrisLoader (catOnDisk content dir s d) fields = .ok (r, total) ∧ ∀ name ∈ fields,
      ∃ a, r.get? name = some a ∧ rows a = inOrder (published_chunks content sim dir s n) name := by
  have e : catOnDisk content dir s d
      = ⟨total, n, offsets, (published_chunks content sim dir s n).map some⟩ := by
    unfold catOnDisk
    rw [open_whole content sim dir s 0 d ha (hw 0 hn)]
    obtain ⟨c, hh⟩ := hhead
    simp only [hh, Cat.mk.injEq, true_and]
    unfold published_chunks
    rw [List.map_map]
    apply List.map_congr_left
    intro j hj
    rw [open_whole content sim dir s j d ha (hw j (List.mem_range.1 hj))]
    rfl
  rw [e]
  exact Load.C47_loader_partial _ _ fields hlen hnd hs h0 hc

theorem loadChunks_missing [Zero K] (c : Cat K) (fields : List Load.Name) (j : ℕ)
    (h : ∃ e, c.chunk j = .error e) : ∀ (l : List ℕ) (r : PyDict Load.Name (Load.Arr K)) (w : ℕ), j ∈ l →
    ∃ e, loadChunks c fields r w l = .error e
  | [], _, _, hj => by simp at hj
  | i :: l, r, w, hj => by
    simp only [loadChunks]
    rcases hi : c.chunk i with e | f
    · exact ⟨e, rfl⟩
    · have hj' : j ∈ l := by
        rcases List.mem_cons.1 hj with rfl | hj
        · obtain ⟨e, he⟩ := h; rw [he] at hi; cases hi
        · exact hj
      simp only
      split
      · exact loadChunks_missing c fields j h l _ _ hj'
      · rcases hf : Load.loadFieldsOf f w r 0 fields with e | ⟨r', len⟩
        · exact ⟨e, rfl⟩
        · exact loadChunks_missing c fields j h l _ _ hj'

/-- If one of the files that the header counts is missing or incomplete, nothing is read: the loader raises. -/
theorem C106_ill_missing [Zero K] (content : Path → Content K) (sim : IllSim) (dir : Path) (s j : ℕ) (d : Disk)
    (fields : List Load.Name) (ha : Alone sim dir s d)
    (hj : j < (content (published sim dir s 0)).numFiles) (h0 : 0 < (content (published sim dir s 0)).total)
    (hm : d (published sim dir s j) ≠ some .whole) :
    ∃ e, illustrisLoader (catOnDisk content dir s d) fields = .error e := by
  have key : ∃ e, loadObjects (catOnDisk content dir s d) fields = .error e := by
    by_cases hw : d (published sim dir s 0) = some .whole
    · obtain ⟨c, hc⟩ : ∃ c, c = catOnDisk content dir s d := ⟨_, rfl⟩
      have hc' := hc
      unfold catOnDisk at hc'
      rw [open_whole content sim dir s 0 d ha hw] at hc'
      have hch : ∃ e, c.chunk j = .error e := by
        refine ⟨.fileNotFound, ?_⟩
        unfold Cat.chunk
        rw [hc']
        simp only [List.getElem?_map, List.getElem?_range hj, Option.map_some,
          open_missing content sim dir s j d ha hm, Option.map_none]
      have ht : ¬ c.total = 0 := by rw [hc']; exact Nat.pos_iff_ne_zero.1 h0
      have hN : c.numFiles = (content (published sim dir s 0)).numFiles := by rw [hc']
      rw [← hc]
      unfold loadObjects
      rcases h1 : c.chunk 0 with e | f0
      · exact ⟨e, rfl⟩
      · simp only [if_neg ht]
        rcases h2 : Load.allocate c.total f0 (if fields = [] then f0.fields.keys else fields) with e | st
        · exact ⟨e, rfl⟩
        · obtain ⟨e, he⟩ := loadChunks_missing c (if fields = [] then f0.fields.keys else fields) j hch
            (List.range c.numFiles) st 0 (by rw [hN]; exact List.mem_range.2 hj)
          simp only [he]
          exact ⟨e, rfl⟩
    · refine ⟨.fileNotFound, ?_⟩
      have : catOnDisk content dir s d = ⟨0, 0, [], []⟩ := by
        unfold catOnDisk
        rw [open_missing content sim dir s 0 d ha hw]
      rw [this]
      rfl
  obtain ⟨e, he⟩ := key
  exact ⟨e, by unfold illustrisLoader; rw [he]⟩

theorem other_ne (sim : IllSim) (dir : Path) (s s' j j' : ℕ) :
    published (other sim) dir s j ≠ published sim dir s' j' := by
  have key : illFile dir "groups_".toList s j ≠ illFile dir "fof_subhalo_tab_".toList s' j' := by
    intro h
    unfold illFile illFolder rawFile at h
    simp only [List.append_assoc] at h
    have h := List.append_cancel_left (List.append_cancel_left (List.append_cancel_left h))
    have h2 := first_slash
      (b := "groups_".toList ++ (three s ++ (".".toList ++ ((toString j).toList ++ ".hdf5".toList))))
      (b' := "fof_subhalo_tab_".toList ++ (three s' ++ (".".toList ++ ((toString j').toList ++ ".hdf5".toList))))
      (by simpa using h) (three_no s '/' (by decide)) (three_no s' '/' (by decide))
    have := congrArg List.head? h2.2
    simp at this
  have key' : illFile dir "fof_subhalo_tab_".toList s j ≠ illFile dir "groups_".toList s' j' := by
    intro h
    unfold illFile illFolder rawFile at h
    simp only [List.append_assoc] at h
    have h := List.append_cancel_left (List.append_cancel_left (List.append_cancel_left h))
    have h2 := first_slash
      (b := "fof_subhalo_tab_".toList ++ (three s ++ (".".toList ++ ((toString j).toList ++ ".hdf5".toList))))
      (b' := "groups_".toList ++ (three s' ++ (".".toList ++ ((toString j').toList ++ ".hdf5".toList))))
      (by simpa using h) (three_no s '/' (by decide)) (three_no s' '/' (by decide))
    have := congrArg List.head? h2.2
    simp at this
  cases sim with
  | illustris => exact key'
  | tng => exact key

theorem download_alone (sim : IllSim) (dir : Path) (s : ℕ) (files : Option ℕ) (runs : ℕ → List (List (ℕ × File)))
    (snaps : List ℕ) (redownload : Bool) (d : Disk) (ha : Alone sim dir s d) :
    Alone sim dir s (after d (illDownload dir sim.fname files runs snaps redownload d)) := by
  intro j
  rw [after_other, ha j]
  intro st hst e
  obtain ⟨-, s', -, j', hf⟩ := illAll_fresh dir sim.fname files runs _ d st hst
  rw [hf, fname_published] at e
  exact other_ne sim dir s s' j j' e.symm

/-- Once a snapshot's first file exists while one of its files is missing or incomplete, the snapshot can never be read,
however often `download()` is called again and whatever the server sends. -/
theorem C106_ill_never_read [Zero K] (content : Path → Content K) (sim : IllSim) (dir : Path) (s j : ℕ)
    (files : Option ℕ) (snaps : List ℕ) (fields : List Load.Name)
    (hj : j < (content (published sim dir s 0)).numFiles) (h0 : 0 < (content (published sim dir s 0)).total) :
    ∀ (calls : List (ℕ → List (List (ℕ × File)))) (d : Disk), Alone sim dir s d →
      d (published sim dir s 0) ≠ none → d (published sim dir s j) ≠ some .whole →
      ∃ e, illustrisLoader (catOnDisk content dir s (downloads sim dir files snaps calls d)) fields = .error e
  | [], d, ha, _, hm => C106_ill_missing content sim dir s j d fields ha hj h0 hm
  | runs :: calls, d, ha, hf, hm => by
    have hk : ∀ i, after d (illDownload dir sim.fname files runs snaps false d) (published sim dir s i)
        = d (published sim dir s i) := by
      intro i
      rw [← fname_published]
      exact C106_ill_skip_fails dir sim.fname files runs snaps d s i (by rw [fname_published]; exact hf)
    exact C106_ill_never_read content sim dir s j files snaps fields hj h0 calls _
      (download_alone sim dir s files runs snaps false d ha) (by rw [hk]; exact hf) (by rw [hk]; exact hm)

/-! ### Examples -/

/-- A snapshot of two files with one halo each. -/
def exContent (p : Path) : Content ℤ :=
  if p = illFile "/s".toList "fof_subhalo_tab_".toList 7 0 then
    ⟨2, 2, [0, 1], ⟨1, [("SubhaloMass", .one [5]), ("SubhaloPos", .many 3 [[1, 2, 3]])]⟩⟩
  else ⟨2, 2, [0, 1], ⟨1, [("SubhaloMass", .one [4]), ("SubhaloPos", .many 3 [[6, 7, 8]])]⟩⟩

/-- A disk with the files in a list. -/
def exDisk (l : List (Path × File)) : Disk := fun p => (l.find? (fun q => q.1 == p)).map (·.2)

/-- `C106_ill_read`: a complete snapshot of TNG. -/
example : AllThere .tng "/s".toList 7 2
      (exDisk [(illFile "/s".toList "fof_subhalo_tab_".toList 7 0, .whole),
        (illFile "/s".toList "fof_subhalo_tab_".toList 7 1, .whole)]) ∧
    illustrisLoader (catOnDisk exContent "/s".toList 7
      (exDisk [(illFile "/s".toList "fof_subhalo_tab_".toList 7 0, .whole),
        (illFile "/s".toList "fof_subhalo_tab_".toList 7 1, .whole)])) ["SubhaloMass", "SubhaloPos"]
      = .ok ([("SubhaloMass", .one [5, 4]), ("SubhaloPos", .many 3 [[1, 2, 3], [6, 7, 8]])], 2) := by
  refine ⟨?_, by decide +kernel⟩
  intro j hj
  match j, hj with
  | 0, _ => decide +kernel
  | 1, _ => decide +kernel

/-- The folder has no files of the other project. -/
example : Alone .tng "/s".toList 7 (exDisk [(illFile "/s".toList "fof_subhalo_tab_".toList 7 0, .whole),
    (illFile "/s".toList "fof_subhalo_tab_".toList 7 1, .part)]) := by
  intro j
  have h0 := other_ne .tng "/s".toList 7 7 j 0
  have h1 := other_ne .tng "/s".toList 7 7 j 1
  simp only [published, other] at h0 h1 ⊢
  simp only [exDisk, List.find?_cons, beq_eq_false_iff_ne.2 (Ne.symm h0), beq_eq_false_iff_ne.2 (Ne.symm h1),
    List.find?_nil, Option.map_none]

/-- `C106_ill_missing` and `C106_ill_never_read`: the second file is incomplete. -/
example : illustrisLoader (catOnDisk exContent "/s".toList 7
      (exDisk [(illFile "/s".toList "fof_subhalo_tab_".toList 7 0, .whole),
        (illFile "/s".toList "fof_subhalo_tab_".toList 7 1, .part)])) ["SubhaloMass", "SubhaloPos"]
      = .error .fileNotFound := by
  decide +kernel

end Verif.Raw
