import Verif.Model.Catalog
import Verif.Props.Downloads

/-!
# C108 — opening the catalogues of a simulation

A catalogue has the snapshots asked for that exist, in order; its metadata are those that `download_meta` saved; missing
raw data are reported.  An interruption while the metadata are saved makes the simulation unusable: no catalogue can be
opened any more, and without a catalogue the metadata cannot be fetched again.  Metadata that were saved for fewer
snapshots are never completed.
-/

set_option linter.unusedSectionVars false

namespace Verif.Raw

open Spec

theorem mem_commonSnaps (asked all : List ℕ) (n : ℕ) : n ∈ commonSnaps asked all ↔ n ∈ asked ∧ n ∈ all := by
  simp only [commonSnaps, List.mem_insertionSort, List.mem_filter, List.mem_dedup, decide_eq_true_eq]
  exact and_comm

theorem sorted_commonSnaps (asked all : List ℕ) : (commonSnaps asked all).Pairwise (· < ·) := by
  have h1 : (commonSnaps asked all).Pairwise (· ≤ ·) := List.pairwise_insertionSort _ _
  have h2 : (commonSnaps asked all).Nodup :=
    (List.perm_insertionSort _ _).nodup_iff.2 ((List.nodup_dedup all).filter _)
  exact (h1.and h2).imp (fun h => lt_of_le_of_ne h.1 h.2)

theorem open_snaps (all : List ℕ) (asked : Option (List ℕ)) (m : Metas) (c : Catalog)
    (h : openCatalog all asked m = .ok c) : c.snaps = commonSnaps (asked.getD all) all := by
  unfold openCatalog at h
  simp only at h
  split at h
  · simp only [Except.ok.injEq] at h; subst h; rfl
  · cases h
  · split at h
    · cases h
    · cases h
    · simp only [Except.ok.injEq] at h; subst h; rfl

/-- The snapshots of a catalogue are those asked for that exist, each once, in increasing order. -/
theorem C108_snaps (all : List ℕ) (asked : Option (List ℕ)) (m : Metas) (c : Catalog)
    (h : openCatalog all asked m = .ok c) :
    c.snaps.Pairwise (· < ·) ∧
    ∀ n, n ∈ c.snaps ↔ n ∈ all ∧ ∀ l, asked = some l → n ∈ l := by
  rw [open_snaps all asked m c h]
  refine ⟨sorted_commonSnaps _ _, fun n => ?_⟩
  rw [mem_commonSnaps]
  cases asked with
  | none => simp
  | some l => simp [and_comm]

/-- Without metadata a catalogue can be opened, and says that there are none. -/
theorem C108_without (all : List ℕ) (asked : Option (List ℕ)) (rows : Option (Option (List ℕ))) :
    ∃ c, openCatalog all asked ⟨none, rows⟩ = .ok c ∧ c.metadata = none := ⟨_, rfl, rfl⟩

/-- A catalogue that is opened after the metadata were downloaded has rows for just the snapshots of the catalogue that
downloaded them. -/
theorem C108_downloaded (all : List ℕ) (asked later : Option (List ℕ)) (m : Metas) (c : Catalog)
    (hsort : all.Pairwise (· < ·)) (h : openCatalog all asked m = .ok c) (hne : c.snaps ≠ []) (redownload : Bool)
    (hnew : redownload = true ∨ m.sim = none) :
    (downloadMeta all c.snaps redownload m).2 = .ok () ∧
    ∃ c', openCatalog all later (metasAfter m (downloadMeta all c.snaps redownload m).1) = .ok c' ∧
      c'.metadata = some c.snaps := by
  have hs := C108_snaps all asked m c h
  have hrows : all.filter (fun n => decide (n ∈ c.snaps)) = c.snaps := by
    have h1 : (all.filter (fun n => decide (n ∈ c.snaps))).Pairwise (· < ·) := hsort.filter _
    apply List.Perm.eq_of_pairwise (le := (· < ·)) (fun a b _ _ hab hba => absurd (lt_trans hab hba) (lt_irrefl _)) h1 hs.1
    rw [List.perm_ext_iff_of_nodup (h1.imp (fun h => ne_of_lt h)) (hs.1.imp (fun h => ne_of_lt h))]
    intro n
    simp only [List.mem_filter, decide_eq_true_eq]
    exact ⟨fun h => h.2, fun h => ⟨((hs.2 n).1 h).1, h⟩⟩
  have hc : ¬ (redownload = false ∧ m.sim.isSome = true) := by
    rcases hnew with rfl | h'
    · simp
    · simp [h']
  unfold downloadMeta
  simp only [if_neg hc, hrows, if_neg hne]
  refine ⟨trivial, _, rfl, rfl⟩

/-- If the catalogue has no snapshots (none of those asked for exists), the metadata cannot be downloaded and nothing is
saved. -/
theorem C108_no_snapshots (all : List ℕ) (redownload : Bool) (m : Metas) (h : redownload = true ∨ m.sim = none) :
    downloadMeta all [] redownload m = ([], .error .index) := by
  have hc : ¬ (redownload = false ∧ m.sim.isSome = true) := by
    rcases h with rfl | h'
    · simp
    · simp [h']
  unfold downloadMeta
  simp [if_neg hc]

/-- Metadata that exist are not changed by `download_meta()`: snapshots that they do not describe stay without. -/
theorem C108_stale_fails (all snaps old : List ℕ) (later : Option (List ℕ)) :
    ∃ c, openCatalog all later
        (metasAfter ⟨some .whole, some (some old)⟩ (downloadMeta all snaps false ⟨some .whole, some (some old)⟩).1) = .ok c ∧
      c.metadata = some old := ⟨_, rfl, rfl⟩

/-- Interrupted before the first step or after the last: a catalogue can be opened. -/
theorem C108_crash_partial (all snaps : List ℕ) (rows : Option (Option (List ℕ))) (k : ℕ) (hk : k = 0 ∨ 4 ≤ k)
    (asked : Option (List ℕ)) :
    ∃ c, openCatalog all asked (metasAfter ⟨none, rows⟩ ((downloadMeta all snaps false ⟨none, rows⟩).1.take k)) = .ok c := by
  unfold downloadMeta
  simp only [Option.isSome_none, Bool.false_eq_true, and_false, if_false]
  split
  · exact ⟨_, by rw [List.take_nil]; rfl⟩
  · rcases hk with rfl | hk
    · exact ⟨_, rfl⟩
    · rw [List.take_of_length_le (by simpa using hk)]
      exact ⟨_, rfl⟩

/-- Later calls of `download_meta()` (by catalogue objects that are still in use). -/
inductive MLater (all : List ℕ) : Metas → Metas → Prop
  | same (m) : MLater all m m
  | call (m m' : Metas) (snaps : List ℕ) (h : MLater all m m') :
      MLater all m (metasAfter m' (downloadMeta all snaps false m').1)

theorem mlater_kept (all : List ℕ) (m m' : Metas) (h : MLater all m m') (hm : m.sim ≠ none) : m' = m := by
  induction h with
  | same => rfl
  | call m' snaps _ ih =>
    have ih := ih
    subst ih
    have : m'.sim.isSome = true := Option.isSome_iff_ne_none.2 hm
    unfold downloadMeta
    rw [if_pos ⟨rfl, this⟩]
    rfl

/-- The first download of the metadata, interrupted anywhere between its first and its last step: from then on every
attempt to open a catalogue raises an exception, whatever snapshots are asked for and however often `download_meta()`
is called. -/
theorem C108_crash_fails (all snaps : List ℕ) (hne : ∃ n ∈ all, n ∈ snaps) (k : ℕ) (h1 : 0 < k) (h2 : k < 4) (m' : Metas)
    (h : MLater all (metasAfter ⟨none, none⟩ ((downloadMeta all snaps false ⟨none, none⟩).1.take k)) m')
    (asked : Option (List ℕ)) :
    ∃ e, openCatalog all asked m' = .error e := by
  have hr : ¬ all.filter (fun n => decide (n ∈ snaps)) = [] := by
    obtain ⟨n, hn, hs⟩ := hne
    intro e
    have : n ∈ all.filter (fun n => decide (n ∈ snaps)) := by simp [hn, hs]
    rw [e] at this
    cases this
  unfold downloadMeta at h
  simp only [Option.isSome_none, Bool.false_eq_true, and_false, if_false, if_neg hr] at h
  obtain rfl | rfl | rfl : k = 1 ∨ k = 2 ∨ k = 3 := by omega
  · rw [mlater_kept all _ _ h (by simp [metasAfter, MStep.apply])]
    exact ⟨_, rfl⟩
  · rw [mlater_kept all _ _ h (by simp [metasAfter, MStep.apply])]
    exact ⟨_, rfl⟩
  · rw [mlater_kept all _ _ h (by simp [metasAfter, MStep.apply])]
    exact ⟨_, rfl⟩

/-- A catalogue object that is still in use repairs the files with `redownload`. -/
theorem C108_repair (all snaps : List ℕ) (hne : ∃ n ∈ all, n ∈ snaps) (m : Metas) (asked : Option (List ℕ)) :
    ∃ c, openCatalog all asked (metasAfter m (downloadMeta all snaps true m).1) = .ok c ∧
      ∀ n, n ∈ all → n ∈ snaps → ∃ l, c.metadata = some l ∧ n ∈ l := by
  have hr : ¬ all.filter (fun n => decide (n ∈ snaps)) = [] := by
    obtain ⟨n, hn, hs⟩ := hne
    intro e
    have : n ∈ all.filter (fun n => decide (n ∈ snaps)) := by simp [hn, hs]
    rw [e] at this
    cases this
  unfold downloadMeta
  simp only [Bool.true_eq_false, false_and, if_false, if_neg hr]
  exact ⟨_, rfl, fun n h1 h2 => ⟨_, rfl, by simp [h1, h2]⟩⟩

/-! ### What is reported as missing -/

/-- UniverseMachine: the snapshots reported are those without a file; after `download()` there are none. -/
theorem C108_um_report (dir : Path) (name : ℕ → Path) (snaps : List ℕ) (d : Disk) :
    (∀ s, s ∈ umReport dir name snaps d ↔ s ∈ snaps ∧ d (rawFile dir (name s)) = none) ∧
    umReport dir name snaps (after d (umDownload dir name snaps false d)) = [] := by
  constructor
  · intro s
    simp [umReport]
  · unfold umReport
    rw [List.filter_eq_nil_iff]
    intro s hs
    rw [C106_um dir name snaps d]
    split
    · simp
    · rename_i hn
      have : d (rawFile dir (name s)) ≠ none := fun e => hn ⟨List.mem_map.2 ⟨s, hs, rfl⟩, e⟩
      simpa using this

/-- Uchuu: the snapshots reported are those that lack one of the three data files; after `download()` with the default
data files there are none, if the path does not contain "data1". -/
theorem C108_uchuu_report_partial (dir : Path) (name : ℕ → Path) (snaps : List ℕ) (d : Disk) :
    (∀ s, s ∈ uchuuReport dir name snaps d ↔
      s ∈ snaps ∧ ∃ df, 1 ≤ df ∧ df ≤ 3 ∧ d (uchuuFile dir (name s) df) = none) ∧
    (¬ Occurs "data1".toList dir →
      uchuuReport dir name snaps (after d (uchuuDownload dir name snaps [1, 2, 3] false d)) = []) := by
  constructor
  · intro s
    simp only [uchuuReport, List.mem_filter, List.any_eq_true, Option.isNone_iff_eq_none]
    constructor
    · rintro ⟨h1, df, h2, h3⟩
      refine ⟨h1, df, ?_, ?_, h3⟩ <;> simp at h2 <;> omega
    · rintro ⟨h1, df, h2, h3, h4⟩
      refine ⟨h1, df, ?_, h4⟩
      simp
      omega
  · intro hdir
    unfold uchuuReport
    rw [List.filter_eq_nil_iff]
    intro s hs
    simp only [List.any_eq_true, Option.isNone_iff_eq_none, not_exists, not_and]
    intro df hdf
    rw [C106_uchuu_partial dir name snaps [1, 2, 3] d hdir]
    split
    · simp
    · rename_i hn
      exact fun e => hn ⟨List.mem_flatMap.2 ⟨s, hs, List.mem_map.2 ⟨df, hdf, rfl⟩⟩, e⟩

/-- Uchuu: if the path contains "data1", the second and third file of a snapshot are reported as missing after every
download. -/
theorem C108_uchuu_report_fails (dir : Path) (name : ℕ → Path) (snaps dfs : List ℕ) (redownload : Bool) (d : Disk)
    (h : Occurs "data1".toList dir) (hname : ∀ s, '/' ∉ name s) (s : ℕ) (hs : s ∈ snaps)
    (hother : ∀ s' ∈ snaps, name s' ≠ withData 2 (name s)) (hd : d (uchuuFile dir (name s) 2) = none) :
    s ∈ uchuuReport dir name snaps (after d (uchuuDownload dir name snaps dfs redownload d)) := by
  rw [(C108_uchuu_report_partial dir name snaps _).1 s]
  refine ⟨hs, 2, by omega, by omega, ?_⟩
  rw [C106_uchuu_missing_fails dir name snaps dfs redownload d h hname s 2 (by omega) hother, hd]

/-- The whole property about the metadata: wherever saving them is interrupted, a catalogue can be opened later. -/
def C108_full : Prop :=
  ∀ (all snaps : List ℕ) (k : ℕ) (asked : Option (List ℕ)),
    ∃ c, openCatalog all asked (metasAfter ⟨none, none⟩ ((downloadMeta all snaps false ⟨none, none⟩).1.take k)) = .ok c

/-- It fails: interrupted between the two files. -/
theorem C108_full_false : ¬ C108_full := by
  intro h
  obtain ⟨c, hc⟩ := h [0, 1] [0, 1] 2 none
  obtain ⟨e, he⟩ := C108_crash_fails [0, 1] [0, 1] ⟨0, by simp, by simp⟩ 2 (by omega) (by omega) _ (.same _) none
  rw [he] at hc
  cases hc

/-! ### Examples -/

/-- Illustris-1 lacks some snapshots; a repeated and a missing one are asked for. -/
example : openCatalog [0, 1, 2, 4] (some [4, 3, 1, 4]) ⟨some .whole, some (some [0, 1, 2, 4])⟩
    = .ok ⟨[1, 4], some [0, 1, 2, 4]⟩ := by decide +kernel

example : (downloadMeta [0, 1, 2] [1, 2] false ⟨none, none⟩)
    = ([.startSim, .finishSim, .startRows, .finishRows [1, 2]], .ok ()) := by decide +kernel

/-- Interrupted between the two files; `download_meta()` does nothing, and no catalogue can be opened. -/
example : (let m := metasAfter ⟨none, none⟩ ((downloadMeta [0, 1] [0] false ⟨none, none⟩).1.take 2)
    downloadMeta [0, 1] [0] false m = ([], .ok ()) ∧ openCatalog [0, 1] none m = .error .fileNotFound) := by
  decide +kernel

/-- Metadata for snapshot 0 only; the catalogue of both snapshots keeps them. -/
example : (let m : Metas := ⟨some .whole, some (some [0])⟩
    openCatalog [0, 1] none (metasAfter m (downloadMeta [0, 1] [0, 1] false m).1) = .ok ⟨[0, 1], some [0]⟩) := by
  decide +kernel

example : umReport "/s".toList (fun s => (toString s).toList) [0, 1, 2]
    (fun f => if f = "/s/raw/1".toList then some .whole else none) = [0, 2] := by decide +kernel

end Verif.Raw
