import Verif.Lemmas.RawFiles
import Mathlib.Tactic.SplitIfs

/-!
# C106 — downloading the raw data

A call of `download()` fetches every file that is missing, to the place where it is looked for when the simulation is
formatted, and leaves the files that are there alone; calling it again does nothing.  An interrupted download followed
by another call gives complete data — unless the interruption falls into a file: that file is then taken for complete
by every later call.  For UM-Uchuu the files end up elsewhere if the path of the simulation contains "data1"; for
Illustris a snapshot is left out as soon as its first file exists, and `redownload` replaces nothing.
-/

set_option linter.unusedSectionVars false

namespace Verif.Raw

open Spec

/-! ### UniverseMachine -/

theorem um_missing (dir : Path) (name : ℕ → Path) (snaps : List ℕ) (d : Disk) :
    umDownload dir name snaps false d = (missing (snaps.map (fun s => rawFile dir (name s))) d).flatMap fetch := by
  simp only [umDownload, missing, Bool.false_eq_true, if_false, List.filter_map, List.flatMap_map]
  rfl

/-- Every missing file is fetched, nothing else changes. -/
theorem C106_um (dir : Path) (name : ℕ → Path) (snaps : List ℕ) (d : Disk) :
    Completed d (after d (umDownload dir name snaps false d)) (snaps.map (fun s => rawFile dir (name s))) := by
  rw [um_missing]
  exact missing_completed _ _

/-- With `redownload` all the files are fetched, whatever was there. -/
theorem C106_um_redownload (dir : Path) (name : ℕ → Path) (snaps : List ℕ) (d : Disk) :
    Replaced d (after d (umDownload dir name snaps true d)) (snaps.map (fun s => rawFile dir (name s))) := by
  intro f
  simp only [umDownload, if_true]
  rw [show (snaps.flatMap fun s => fetch (rawFile dir (name s)))
      = (snaps.map (fun s => rawFile dir (name s))).flatMap fetch by rw [List.flatMap_map], after_fetches]

/-- A second call does nothing. -/
theorem C106_um_repeat (dir : Path) (name : ℕ → Path) (snaps : List ℕ) (d : Disk) :
    umDownload dir name snaps false (after d (umDownload dir name snaps false d)) = [] := by
  rw [um_missing, missing_repeat _ d _ (C106_um dir name snaps d)]
  rfl

/-- Whatever moment it is interrupted at, the files that were there are unchanged. -/
theorem C106_um_kept (dir : Path) (name : ℕ → Path) (snaps : List ℕ) (d : Disk) (k : ℕ) (f : Path) (hf : d f ≠ none) :
    interrupted (umDownload dir name snaps false) k d f = d f := by
  unfold interrupted
  rw [um_missing]
  exact fresh_keeps _ _ (missing_fresh _ _) k f hf

/-- Interrupted between two files and called again: the data are complete. -/
theorem C106_um_crash_partial (dir : Path) (name : ℕ → Path) (snaps : List ℕ) (d : Disk) (q : ℕ) :
    Completed d
      (after (interrupted (umDownload dir name snaps false) (2 * q) d)
        (umDownload dir name snaps false (interrupted (umDownload dir name snaps false) (2 * q) d)))
      (snaps.map (fun s => rawFile dir (name s))) := by
  unfold interrupted
  rw [um_missing, um_missing]
  exact missing_between _ _ _

theorem later_keeps {calls : (Disk → List Step) → Prop} (hc : ∀ c, calls c → ∀ d, ∀ s ∈ c d, d s.file = none)
    {d d' : Disk} (h : Later calls d d') (f : Path) (hf : d f ≠ none) : d' f = d f := by
  induction h with
  | same => rfl
  | call d' steps k hs _ ih =>
    have ih := ih
    unfold interrupted
    rw [fresh_keeps _ _ (hc _ hs _) k f (by rw [ih]; exact hf), ih]

/-- All the calls of `download()` without `redownload`: any catalogue, any snapshots, any data files. -/
def Downloads (c : Disk → List Step) : Prop :=
  (∃ dir name snaps, c = umDownload dir name snaps false) ∨
  ∃ dir name snaps dfs, c = uchuuDownload dir name snaps dfs false

/-! ### Uchuu -/

theorem uchuu_missing (dir : Path) (name : ℕ → Path) (snaps dfs : List ℕ) (d : Disk) :
    uchuuDownload dir name snaps dfs false d
      = (missing (snaps.flatMap (fun s => dfs.map (uchuuTarget dir (name s)))) d).flatMap fetch := by
  unfold uchuuDownload uchuuTodo
  simp only [Bool.false_eq_true, if_false]
  induction snaps with
  | nil => rfl
  | cons s snaps ih =>
    have e : missing ((s :: snaps).flatMap (fun s => dfs.map (uchuuTarget dir (name s)))) d
        = missing (dfs.map (uchuuTarget dir (name s))) d
          ++ missing (snaps.flatMap (fun s => dfs.map (uchuuTarget dir (name s)))) d := by
      simp only [missing, List.flatMap_cons, List.filter_append]
    rw [e, List.flatMap_append, ← ih, List.map_cons]
    have e2 : (missing (dfs.map (uchuuTarget dir (name s))) d).flatMap fetch
        = (dfs.filter (fun df => (d (uchuuTarget dir (name s) df)).isNone)).flatMap
            (fun df => fetch (uchuuTarget dir (name s) df)) := by
      simp only [missing, List.filter_map, List.flatMap_map]
      rfl
    rw [e2, List.filter_cons]
    by_cases h : 0 < (dfs.filter (fun df => (d (uchuuTarget dir (name s) df)).isNone)).length
    · simp only [h, decide_true, if_true, List.flatMap_cons]
    · have h0 : dfs.filter (fun df => (d (uchuuTarget dir (name s) df)).isNone) = [] :=
        List.length_eq_zero_iff.1 (by omega)
      simp only [h0, List.length_nil, lt_irrefl, decide_false, Bool.false_eq_true, if_false, List.flatMap_nil,
        List.nil_append]

theorem downloads_fresh (c : Disk → List Step) (hc : Downloads c) (d : Disk) : ∀ s ∈ c d, d s.file = none := by
  rcases hc with ⟨dir, name, snaps, rfl⟩ | ⟨dir, name, snaps, dfs, rfl⟩
  · rw [um_missing]; exact missing_fresh _ _
  · rw [uchuu_missing]; exact missing_fresh _ _

/-- For each file that is to be fetched there is a moment such that, if the call is interrupted then, the file is
incomplete and stays so, whatever calls of `download()` follow. -/
theorem C106_um_crash_fails (dir : Path) (name : ℕ → Path) (snaps : List ℕ) (d : Disk) (s : ℕ) (hs : s ∈ snaps)
    (hf : d (rawFile dir (name s)) = none) :
    ∃ k, ∀ d', Later Downloads (interrupted (umDownload dir name snaps false) k d) d' →
      d' (rawFile dir (name s)) = some .part := by
  have hm : rawFile dir (name s) ∈ missing (snaps.map (fun s => rawFile dir (name s))) d :=
    (mem_missing ..).2 ⟨List.mem_map.2 ⟨s, hs, rfl⟩, hf⟩
  obtain ⟨q, hq⟩ := List.getElem?_of_mem hm
  refine ⟨2 * q + 1, fun d' hd => ?_⟩
  have h : interrupted (umDownload dir name snaps false) (2 * q + 1) d (rawFile dir (name s)) = some .part := by
    unfold interrupted
    rw [um_missing]
    exact missing_middle _ _ _ _ hq
  rw [later_keeps downloads_fresh hd _ (by rw [h]; simp), h]

/-- A call with `redownload` that is interrupted damages a file that was complete, and no later call of `download()`
repairs it. -/
theorem C106_um_redownload_crash_fails (dir : Path) (name : ℕ → Path) (snaps : List ℕ) (d : Disk) (s : ℕ)
    (hs : s ∈ snaps) :
    ∃ k, ∀ d', Later Downloads (interrupted (umDownload dir name snaps true) k d) d' →
      d' (rawFile dir (name s)) = some .part := by
  have hm : rawFile dir (name s) ∈ snaps.map (fun s => rawFile dir (name s)) := List.mem_map.2 ⟨s, hs, rfl⟩
  obtain ⟨q, hq⟩ := List.getElem?_of_mem hm
  refine ⟨2 * q + 1, fun d' hd => ?_⟩
  have h : interrupted (umDownload dir name snaps true) (2 * q + 1) d (rawFile dir (name s)) = some .part := by
    unfold interrupted
    simp only [umDownload, if_true]
    rw [show (snaps.flatMap fun s => fetch (rawFile dir (name s)))
      = (snaps.map (fun s => rawFile dir (name s))).flatMap fetch by rw [List.flatMap_map], take_odd _ _ _ hq,
      after_append]
    simp [after, Step.apply]
  rw [later_keeps downloads_fresh hd _ (by rw [h]; simp), h]

theorem data1_ne : "data1".toList ≠ [] := by decide

theorem no_slash : '/' ∉ "data1".toList := by decide

theorem target_eq (dir nm : Path) (df : ℕ) : uchuuTarget dir nm df = withData df dir ++ "/raw/".toList ++ withData df nm := by
  unfold uchuuTarget rawFile withData
  rw [show dir ++ "/raw/".toList ++ nm = dir ++ '/' :: ("raw".toList ++ '/' :: nm) by simp,
    replace_split _ _ _ _ _ no_slash data1_ne 0 (by simp), replace_split _ _ _ _ _ no_slash data1_ne 0 (by simp),
    replace_absent _ _ "raw".toList (by decide)]
  simp

theorem rep_ne (df : ℕ) (h : df ≠ 1) : "data".toList ++ (toString df).toList ≠ "data1".toList := by
  intro e
  have e' : "data".toList ++ (toString df).toList = "data".toList ++ (toString 1).toList := by rw [e]; decide
  exact h (number_inj _ _ (List.append_cancel_left e'))

theorem rep_length (df : ℕ) : "data1".toList.length ≤ ("data".toList ++ (toString df).toList).length := by
  have : 0 < (toString df).toList.length := by rw [number_digits]; exact Nat.length_toDigits_pos
  simp only [List.length_append, show "data1".toList.length = 5 from rfl, show "data".toList.length = 4 from rfl]
  omega

/-- If the path of the simulation does not contain "data1", each file is stored where it is looked for. -/
theorem C106_uchuu_place_partial (dir nm : Path) (df : ℕ) (h : ¬ Occurs "data1".toList dir) :
    uchuuTarget dir nm df = uchuuFile dir nm df := by
  rw [target_eq]
  unfold uchuuFile rawFile
  rw [show withData df dir = dir from replace_absent _ _ _ h]

/-- Then every missing data file is fetched to where it is looked for, and nothing else changes. -/
theorem C106_uchuu_partial (dir : Path) (name : ℕ → Path) (snaps dfs : List ℕ) (d : Disk)
    (h : ¬ Occurs "data1".toList dir) :
    Completed d (after d (uchuuDownload dir name snaps dfs false d))
      (snaps.flatMap (fun s => dfs.map (uchuuFile dir (name s)))) := by
  have e : (fun s => dfs.map (uchuuFile dir (name s))) = fun s => dfs.map (uchuuTarget dir (name s)) := by
    funext s
    apply List.map_congr_left
    intro df _
    exact (C106_uchuu_place_partial dir (name s) df h).symm
  rw [uchuu_missing, e]
  exact missing_completed _ _

/-- A second call does nothing. -/
theorem C106_uchuu_repeat (dir : Path) (name : ℕ → Path) (snaps dfs : List ℕ) (d : Disk) :
    uchuuDownload dir name snaps dfs false (after d (uchuuDownload dir name snaps dfs false d)) = [] := by
  rw [uchuu_missing dir name snaps dfs d, uchuu_missing, missing_repeat _ d _ (missing_completed _ _)]
  rfl

/-- Existing files are unchanged, at whatever moment the call is interrupted. -/
theorem C106_uchuu_kept (dir : Path) (name : ℕ → Path) (snaps dfs : List ℕ) (d : Disk) (k : ℕ) (f : Path)
    (hf : d f ≠ none) : interrupted (uchuuDownload dir name snaps dfs false) k d f = d f := by
  unfold interrupted
  rw [uchuu_missing]
  exact fresh_keeps _ _ (missing_fresh _ _) k f hf

/-- With `redownload` all the files are fetched. -/
theorem C106_uchuu_redownload (dir : Path) (name : ℕ → Path) (snaps dfs : List ℕ) (d : Disk)
    (h : ¬ Occurs "data1".toList dir) :
    Replaced d (after d (uchuuDownload dir name snaps dfs true d))
      (snaps.flatMap (fun s => dfs.map (uchuuFile dir (name s)))) := by
  intro f
  have e : uchuuDownload dir name snaps dfs true d
      = (snaps.flatMap (fun s => dfs.map (uchuuFile dir (name s)))).flatMap fetch := by
    simp only [uchuuDownload, uchuuTodo, if_true, List.flatMap_map, List.flatMap_assoc]
    congr 1
    funext s
    congr 1
    funext df
    rw [C106_uchuu_place_partial dir (name s) df h]
  rw [e, after_fetches]

/-- Interrupted between two files and called again: complete. -/
theorem C106_uchuu_crash_partial (dir : Path) (name : ℕ → Path) (snaps dfs : List ℕ) (d : Disk) (q : ℕ)
    (h : ¬ Occurs "data1".toList dir) :
    Completed d
      (after (interrupted (uchuuDownload dir name snaps dfs false) (2 * q) d)
        (uchuuDownload dir name snaps dfs false (interrupted (uchuuDownload dir name snaps dfs false) (2 * q) d)))
      (snaps.flatMap (fun s => dfs.map (uchuuFile dir (name s)))) := by
  have e : (fun s => dfs.map (uchuuFile dir (name s))) = fun s => dfs.map (uchuuTarget dir (name s)) := by
    funext s
    apply List.map_congr_left
    intro df _
    exact (C106_uchuu_place_partial dir (name s) df h).symm
  unfold interrupted
  rw [uchuu_missing, uchuu_missing, e]
  exact missing_between _ _ _

/-- If the path of the simulation contains "data1", every data file but the first is stored in another folder. -/
theorem C106_uchuu_elsewhere (dir nm : Path) (df : ℕ) (h : Occurs "data1".toList dir) (hdf : df ≠ 1) :
    uchuuTarget dir nm df ≠ uchuuFile dir nm df := by
  rw [target_eq]
  unfold uchuuFile rawFile
  intro e
  have e := List.append_cancel_right (List.append_cancel_right e)
  exact replace_changes _ _ _ data1_ne (rep_ne df hdf) (rep_length df) h e

theorem data_no_slash (df : ℕ) : '/' ∉ "data".toList ++ (toString df).toList := by
  rw [List.mem_append]
  rintro (h | h)
  · exact absurd h (by decide)
  · exact number_no df '/' (by decide) h

theorem replace_no (pat rep A : Path) (c : Char) (hr : c ∉ rep) (hA : c ∉ A) (k : ℕ) : c ∉ replaceFrom pat rep k A := by
  induction A generalizing k with
  | nil => cases k <;> simp [replaceFrom]
  | cons a A ih =>
    have h1 := ih (fun h => hA (List.mem_cons_of_mem _ h))
    cases k with
    | succ k => rw [replaceFrom]; exact h1 k
    | zero =>
      rw [replaceFrom]
      split
      · rw [List.mem_append]
        rintro (h | h)
        · exact hr h
        · exact h1 _ h
      · rw [List.mem_cons]
        rintro (h | h)
        · exact hA (by simp [h])
        · exact h1 _ h

/-- ... so that the file is still missing where it is looked for, however often `download` is called. -/
theorem C106_uchuu_missing_fails (dir : Path) (name : ℕ → Path) (snaps dfs : List ℕ) (redownload : Bool) (d : Disk)
    (h : Occurs "data1".toList dir) (hname : ∀ s, '/' ∉ name s) (s df : ℕ) (hdf : df ≠ 1)
    (hother : ∀ s' ∈ snaps, name s' ≠ withData df (name s)) :
    after d (uchuuDownload dir name snaps dfs redownload d) (uchuuFile dir (name s) df)
      = d (uchuuFile dir (name s) df) := by
  apply after_other
  intro st hst e
  have hex : ∃ s' ∈ snaps, ∃ df', st.file = uchuuTarget dir (name s') df' := by
    unfold uchuuDownload at hst
    rw [List.mem_flatMap] at hst
    obtain ⟨p, hp, hst⟩ := hst
    rw [List.mem_flatMap] at hst
    obtain ⟨df', _, hst⟩ := hst
    refine ⟨p.1, ?_, df', ?_⟩
    · unfold uchuuTodo at hp
      split at hp
      · obtain ⟨s', hs', rfl⟩ := List.mem_map.1 hp; exact hs'
      · obtain ⟨s', hs', rfl⟩ := List.mem_map.1 (List.mem_filter.1 hp).1; exact hs'
    · simp only [fetch, List.mem_cons, List.not_mem_nil, or_false] at hst
      rcases hst with rfl | rfl <;> rfl
  obtain ⟨s', hs', df', hf⟩ := hex
  rw [hf, target_eq] at e
  unfold uchuuFile rawFile at e
  have h1 : '/' ∉ withData df' (name s') := replace_no _ _ _ _ (data_no_slash df') (hname s') 0
  have h2 : '/' ∉ withData df (name s) := replace_no _ _ _ _ (data_no_slash df) (hname s) 0
  have e' : (withData df' dir ++ "/raw".toList) ++ '/' :: withData df' (name s')
      = (dir ++ "/raw".toList) ++ '/' :: withData df (name s) := by simpa using e
  obtain ⟨ea, eb⟩ := slash_split e' h1 h2
  have ed : withData df' dir = dir := List.append_cancel_right ea
  by_cases h1 : df' = 1
  · subst h1
    have : withData 1 (name s') = name s' := by
      have := replace_same "data1".toList (name s') data1_ne 0 (by simp)
      unfold withData
      rw [show "data".toList ++ (toString 1).toList = "data1".toList by decide, this]
      rfl
    rw [this] at eb
    exact hother s' hs' eb
  · exact replace_changes _ _ _ data1_ne (rep_ne df' h1) (rep_length df') h ed

/-! ### Illustris -/

theorem wget_fresh (dir pre : Path) (s : ℕ) (r : List (ℕ × File)) (d : Disk) :
    ∀ st ∈ wget dir pre s r d, d st.file = none ∧ ∃ j, st.file = illFile dir pre s j := by
  induction r generalizing d with
  | nil => intro st h; simp [wget] at h
  | cons p r ih =>
    obtain ⟨j, c⟩ := p
    intro st h
    simp only [wget] at h
    rw [List.mem_append] at h
    rcases h with h | h
    · split at h
      · simp at h
      · rename_i hn
        have hn : d (illFile dir pre s j) = none := by simpa using hn
        have : st.file = illFile dir pre s j := by
          cases c
          · simp only [List.mem_cons, List.not_mem_nil, or_false] at h; subst h; rfl
          · simp only [fetch, List.mem_cons, List.not_mem_nil, or_false] at h
            rcases h with rfl | rfl <;> rfl
        rw [this]
        exact ⟨hn, j, rfl⟩
    · obtain ⟨h1, h2⟩ := ih _ st h
      exact ⟨after_none _ _ _ h1, h2⟩

theorem illOne_fresh (dir pre : Path) (s : ℕ) (files : Option ℕ) (runs : List (List (ℕ × File))) (d : Disk) :
    ∀ st ∈ illOne dir pre s files runs d, d st.file = none ∧ ∃ j, st.file = illFile dir pre s j := by
  induction runs generalizing d with
  | nil => intro st h; simp [illOne] at h
  | cons r runs ih =>
    intro st h
    simp only [illOne] at h
    split at h
    · exact wget_fresh dir pre s r d st h
    · rw [List.mem_append] at h
      rcases h with h | h
      · exact wget_fresh dir pre s r d st h
      · obtain ⟨h1, h2⟩ := ih _ st h
        exact ⟨after_none _ _ _ h1, h2⟩

theorem illAll_fresh (dir pre : Path) (files : Option ℕ) (runs : ℕ → List (List (ℕ × File))) (todo : List ℕ) (d : Disk) :
    ∀ st ∈ illAll dir pre files runs todo d, d st.file = none ∧ ∃ s ∈ todo, ∃ j, st.file = illFile dir pre s j := by
  induction todo generalizing d with
  | nil => intro st h; simp [illAll] at h
  | cons s todo ih =>
    intro st h
    simp only [illAll] at h
    rw [List.mem_append] at h
    rcases h with h | h
    · obtain ⟨h1, j, h2⟩ := illOne_fresh dir pre s files _ d st h
      exact ⟨h1, s, List.mem_cons_self .., j, h2⟩
    · obtain ⟨h1, s', hs', h2⟩ := ih _ st h
      exact ⟨after_none _ _ _ h1, s', List.mem_cons_of_mem _ hs', h2⟩

/-- Illustris: with or without `redownload`, and wherever it is interrupted, no existing file changes: a damaged file
cannot be replaced by downloading it again. -/
theorem C106_ill_redownload_fails (dir pre : Path) (files : Option ℕ) (runs : ℕ → List (List (ℕ × File)))
    (snaps : List ℕ) (redownload : Bool) (d : Disk) (k : ℕ) (f : Path) (hf : d f ≠ none) :
    interrupted (illDownload dir pre files runs snaps redownload) k d f = d f :=
  fresh_keeps _ _ (fun st hst => (illAll_fresh dir pre files runs _ d st hst).1) k f hf

theorem illFile_snap (dir pre : Path) (s s' j j' : ℕ) (h : illFile dir pre s j = illFile dir pre s' j') : s = s' := by
  unfold illFile illFolder rawFile at h
  simp only [List.append_assoc] at h
  have h := List.append_cancel_left (List.append_cancel_left (List.append_cancel_left h))
  have h2 := first_slash (b := pre ++ (three s ++ (".".toList ++ ((toString j).toList ++ ".hdf5".toList))))
    (b' := pre ++ (three s' ++ (".".toList ++ ((toString j').toList ++ ".hdf5".toList)))) (by simpa using h)
    (three_no s '/' (by decide)) (three_no s' '/' (by decide))
  exact three_inj _ _ h2.1

/-- Illustris: if the first file of a snapshot exists, the snapshot is left out: its other files stay missing, whatever
the web site sends. -/
theorem C106_ill_skip_fails (dir pre : Path) (files : Option ℕ) (runs : ℕ → List (List (ℕ × File)))
    (snaps : List ℕ) (d : Disk) (s j : ℕ) (h0 : d (illFile dir pre s 0) ≠ none) :
    after d (illDownload dir pre files runs snaps false d) (illFile dir pre s j) = d (illFile dir pre s j) := by
  apply after_other
  intro st hst e
  obtain ⟨-, s', hs', j', hf⟩ := illAll_fresh dir pre files runs _ d st hst
  rw [hf] at e
  have := illFile_snap _ _ _ _ _ _ e
  subst this
  simp only [Bool.false_eq_true, if_false, List.mem_filter, Option.isNone_iff_eq_none] at hs'
  exact h0 hs'.2

theorem after_some (d : Disk) (steps : List Step) (f : Path) (h : d f ≠ none) : after d steps f ≠ none :=
  fun e => h (after_none _ _ _ e)

theorem wget_brings (dir pre : Path) (s : ℕ) (r : List (ℕ × File)) (d : Disk) (j : ℕ) (c : File) (h : (j, c) ∈ r) :
    after d (wget dir pre s r d) (illFile dir pre s j) ≠ none := by
  induction r generalizing d with
  | nil => simp at h
  | cons p r ih =>
    obtain ⟨j', c'⟩ := p
    simp only [wget]
    rw [after_append]
    rcases List.mem_cons.1 h with h | h
    · cases h
      apply after_some
      split
      · rename_i hs
        simp only [after, List.foldl_nil]
        intro e
        rw [e] at hs
        cases hs
      · cases c <;> simp [after, fetch, Step.apply]
    · exact ih _ h

theorem illOne_brings (dir pre : Path) (s n : ℕ) (runs : List (List (ℕ × File))) (d : Disk)
    (h : ∃ r ∈ runs, ∀ j < n, ∃ c, (j, c) ∈ r) (j : ℕ) (hj : j < n) :
    after d (illOne dir pre s (some n) runs d) (illFile dir pre s j) ≠ none := by
  induction runs generalizing d with
  | nil => simp at h
  | cons r runs ih =>
    simp only [illOne]
    split
    · rename_i ha
      simp only [arrived, List.all_eq_true, List.mem_range] at ha
      intro e
      have := ha j hj
      rw [e] at this
      cases this
    · rename_i ha
      rw [after_append]
      obtain ⟨r', hr', hall⟩ := h
      rcases List.mem_cons.1 hr' with rfl | hr'
      · exfalso
        apply ha
        simp only [arrived, List.all_eq_true, List.mem_range]
        intro i hi
        obtain ⟨c, hc⟩ := hall i hi
        exact Option.isSome_iff_ne_none.2 (wget_brings dir pre s r' d i c hc)
      · exact ih _ ⟨r', hr', hall⟩

/-- Illustris: if the metadata are known, `download` goes on until every file of a snapshot it began exists, provided
that some run of `wget` brings them. -/
theorem C106_ill_complete_partial (dir pre : Path) (n : ℕ) (runs : ℕ → List (List (ℕ × File)))
    (snaps : List ℕ) (d : Disk) (s : ℕ) (hs : s ∈ snaps) (h0 : d (illFile dir pre s 0) = none)
    (hr : ∃ r ∈ runs s, ∀ j < n, ∃ c, (j, c) ∈ r) (j : ℕ) (hj : j < n) :
    after d (illDownload dir pre (some n) runs snaps false d) (illFile dir pre s j) ≠ none := by
  have key : ∀ (todo : List ℕ) (d : Disk), s ∈ todo →
      after d (illAll dir pre (some n) runs todo d) (illFile dir pre s j) ≠ none := by
    intro todo
    induction todo with
    | nil => intro d h; simp at h
    | cons t todo ih =>
      intro d h
      simp only [illAll]
      rw [after_append]
      rcases List.mem_cons.1 h with rfl | h
      · exact after_some _ _ _ (illOne_brings dir pre s n _ d hr j hj)
      · exact ih _ h
  exact key _ d (by simp [List.mem_filter, hs, h0])

/-- Illustris: without metadata nothing is checked: the first run of `wget` is the only one. -/
theorem C106_ill_unchecked (dir pre : Path) (s : ℕ) (r : List (ℕ × File)) (runs : List (List (ℕ × File))) (d : Disk) :
    illOne dir pre s none (r :: runs) d = wget dir pre s r d := by
  simp [illOne, arrived]

/-- The whole property: interrupted at any moment and called again, `download` gives complete data. -/
def C106_full : Prop :=
  ∀ (dir : Path) (name : ℕ → Path) (snaps : List ℕ) (d : Disk) (k : ℕ),
    Completed d
      (after (interrupted (umDownload dir name snaps false) k d)
        (umDownload dir name snaps false (interrupted (umDownload dir name snaps false) k d)))
      (snaps.map (fun s => rawFile dir (name s)))

/-- It fails: an interruption within a file. -/
theorem C106_full_false : ¬ C106_full := by
  intro h
  have := h "/s".toList (fun _ => "a".toList) [0] (fun _ => none) 1 "/s/raw/a".toList
  revert this
  decide +kernel

/-! ### Examples -/

/-- Three files, one of which is there already. -/
example : (let d : Disk := fun f => if f = "/s/raw/b".toList then some .part else none
    let name : ℕ → Path := fun s => if s = 0 then "a".toList else if s = 1 then "b".toList else "c".toList
    (umDownload "/s".toList name [0, 1, 2] false d)
      = [.start "/s/raw/a".toList, .finish "/s/raw/a".toList, .start "/s/raw/c".toList, .finish "/s/raw/c".toList]) := by
  decide +kernel

/-- The path /data1/um contains "data1": the second file is looked for in one place and stored in another. -/
example : uchuuFile "/data1/um".toList "h_data1.h5".toList 2 = "/data1/um/raw/h_data2.h5".toList ∧
    uchuuTarget "/data1/um".toList "h_data1.h5".toList 2 = "/data2/um/raw/h_data2.h5".toList := by decide +kernel

example : Occurs "data1".toList "/data1/um".toList ∧ ¬ Occurs "data1".toList "/home/um".toList := by
  unfold Occurs
  decide +kernel

example : illFile "/s".toList "fof_".toList 7 12 = "/s/raw/groups_007/fof_007.12.hdf5".toList := by decide +kernel

/-- The second run brings the missing file. -/
example : (let d : Disk := fun _ => none
    let runs : ℕ → List (List (ℕ × File)) := fun _ => [[(0, .whole)], [(0, .whole), (1, .whole)]]
    let d' := after d (illDownload "/s".toList "f".toList (some 2) runs [3] false d)
    d' (illFile "/s".toList "f".toList 3 0) = some .whole ∧ d' (illFile "/s".toList "f".toList 3 1) = some .whole) := by
  decide +kernel

/-- The first file is there, the second is not, and stays missing. -/
example : (let d : Disk := fun f => if f = illFile "/s".toList "f".toList 3 0 then some .whole else none
    let runs : ℕ → List (List (ℕ × File)) := fun _ => [[(0, .whole), (1, .whole)]]
    after d (illDownload "/s".toList "f".toList (some 2) runs [3] false d) (illFile "/s".toList "f".toList 3 1) = none) := by
  decide +kernel

end Verif.Raw
