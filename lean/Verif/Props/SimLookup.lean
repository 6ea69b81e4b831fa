import Mathlib.Algebra.Field.Rat
import Mathlib.Algebra.Order.Ring.Rat
import Mathlib.Algebra.Order.Field.Basic
import Mathlib.Tactic.FieldSimp
import Verif.Lemmas.Sim

/-!
# C10 (redshift to snapshot) and C11 (mass-limited reads)
-/

namespace Verif.Sim
open Spec

variable {K : Type} [Field K] [LinearOrder K]

/-! ## C10 -/

/-- C10 at full strength: on a table of snapshots tiling `[lo, hi]`, every covered redshift is
mapped to a snapshot whose interval contains it, and every other redshift is rejected. -/
def C10_full : Prop :=
  ∀ (l : List (SnapMeta ℚ)) (lo hi : ℚ), 0 ≤ lo → Table l lo hi → ∀ z : ℚ,
    ((lo ≤ z ∧ z ≤ hi) → ∃ s ∈ l, s.zmin ≤ z ∧ z ≤ s.zmax ∧ zToSnap l z = .ok s.index) ∧
    (¬ (lo ≤ z ∧ z ≤ hi) → ∃ e, zToSnap l z = .error e)

/-- C10, proved part: the redshift found is the snapshot whose interval contains it, for every
redshift from the lowest edge up to but excluding the highest; there is only one such
snapshot. Negative redshifts and redshifts above the highest edge are rejected.
Missing: the highest edge itself and redshifts between 0 and the lowest edge (see below). -/
theorem C10_lookup_partial (l : List (SnapMeta K)) (lo hi : K) (ht : Table l lo hi) (h0 : 0 ≤ lo)
    (z : K) :
    ((lo ≤ z ∧ z < hi) → ∃ s ∈ l, Covers s z ∧ zToSnap l z = .ok s.index ∧
      ∀ s' ∈ l, Covers s' z → s' = s) ∧
    ((z < 0 ∨ hi < z) → zToSnap l z = .error .valueError) := by
  obtain ⟨l', hp, hs, hne, hT⟩ := ht
  have hz := zTables_of_table l l' lo hi hp hs hne hT
  have hmax : (l'.map (·.zmin) ++ [hi]).max? = some hi := by
    apply max?_append_last
    intro e he
    obtain ⟨s, hs', rfl⟩ := List.mem_map.1 he
    exact le_trans (le_of_lt (hT.zmin_lt_zmax s hs')) (hT.lt_hi s hs')
  constructor
  · rintro ⟨h1, h2⟩
    obtain ⟨i, s, e1, e2, e3, e4⟩ := hT.count z h1 h2
    refine ⟨s, hp.mem_iff.1 (List.mem_of_getElem? e1), e2, ?_, ?_⟩
    · unfold zToSnap
      have hg : ¬ ((∃ b ∈ (l'.map (·.zmin) ++ [hi]).max?, z > b) ∨ z < 0) := by
        rw [hmax]
        rintro (⟨b, hb, hlt⟩ | hlt)
        · simp only [Option.mem_some_iff] at hb
          subst hb
          exact lt_asymm h2 hlt
        · exact absurd (le_trans h0 h1) (not_le.2 hlt)
      have hd : digitize z (l'.map (·.zmin) ++ [hi]) = .ok (i + 1) := by
        unfold digitize
        rw [if_pos hT.edges_sorted, e3]
      simp only [hz, hd]
      rw [if_neg hg]
      have : ((i + 1 : ℕ) : ℤ) - 1 = (i : ℤ) := by omega
      rw [this]
      apply pyIndex_nat
      rw [List.getElem?_map, e1]; rfl
    · intro s' hs' hc
      obtain ⟨j, hj⟩ := List.getElem?_of_mem (hp.mem_iff.2 hs')
      have := e4 j s' hj hc
      subst this
      rw [hj] at e1
      exact Option.some.inj e1
  · intro h
    unfold zToSnap
    simp only [hz]
    rw [if_pos]
    rw [hmax]
    rcases h with h | h
    · exact Or.inr h
    · exact Or.inl ⟨hi, rfl, h⟩

/-- C10 is false at the highest edge of every table: that redshift (the redshift of the first
snapshot of the simulation) is accepted by the range check and then fails with `IndexError`. -/
theorem C10_top_edge_fails (l : List (SnapMeta K)) (lo hi : K) (ht : Table l lo hi) (h0 : 0 ≤ lo) :
    zToSnap l hi = .error .indexError := by
  obtain ⟨l', hp, hs, hne, hT⟩ := ht
  have hz := zTables_of_table l l' lo hi hp hs hne hT
  have hle : ∀ e ∈ l'.map (·.zmin), e ≤ hi := by
    intro e he
    obtain ⟨s, hs', rfl⟩ := List.mem_map.1 he
    exact le_trans (le_of_lt (hT.zmin_lt_zmax s hs')) (hT.lt_hi s hs')
  have hmax : (l'.map (·.zmin) ++ [hi]).max? = some hi := max?_append_last _ _ hle
  have hg : ¬ ((∃ b ∈ (l'.map (·.zmin) ++ [hi]).max?, hi > b) ∨ hi < 0) := by
    rw [hmax]
    rintro (⟨b, hb, hlt⟩ | hlt)
    · simp only [Option.mem_some_iff] at hb
      subst hb
      exact lt_irrefl _ hlt
    · exact absurd (le_trans h0 hT.le) (not_le.2 hlt)
  have hd : digitize hi (l'.map (·.zmin) ++ [hi]) = .ok (l'.length + 1) := by
    unfold digitize
    rw [if_pos hT.edges_sorted]
    have : (l'.map (·.zmin) ++ [hi]).countP (fun e => decide (e ≤ hi)) = l'.length + 1 := by
      rw [List.countP_eq_length.2]
      · simp
      · intro e he
        rcases List.mem_append.1 he with he | he
        · simpa using hle e he
        · rw [List.mem_singleton.1 he]; simp
    rw [this]
  unfold zToSnap
  simp only [hz, hd]
  rw [if_neg hg]
  have : ((l'.length + 1 : ℕ) : ℤ) - 1 = (l'.length : ℤ) := by omega
  rw [this]
  unfold pyIndex
  have h1 : ¬ ((l'.length : ℤ) < 0) := by omega
  simp [h1]

/-- C10 is false below the lowest edge (tables that do not start at redshift zero): the redshift is
accepted and mapped to the snapshot of HIGHEST redshift (Python index -1). -/
theorem C10_below_range_wraps (l : List (SnapMeta K)) (lo hi : K) (ht : Table l lo hi) (z : K)
    (h0 : 0 ≤ z) (hz : z < lo) :
    ∃ s ∈ l, (∀ s' ∈ l, s'.redshift ≤ s.redshift) ∧ ¬ Covers s z ∧ zToSnap l z = .ok s.index := by
  obtain ⟨l', hp, hs, hne, hT⟩ := ht
  have hzt := zTables_of_table l l' lo hi hp hs hne hT
  have hmax : (l'.map (·.zmin) ++ [hi]).max? = some hi := by
    apply max?_append_last
    intro e he
    obtain ⟨s, hs', rfl⟩ := List.mem_map.1 he
    exact le_trans (le_of_lt (hT.zmin_lt_zmax s hs')) (hT.lt_hi s hs')
  have hg : ¬ ((∃ b ∈ (l'.map (·.zmin) ++ [hi]).max?, z > b) ∨ z < 0) := by
    rw [hmax]
    rintro (⟨b, hb, hlt⟩ | hlt)
    · simp only [Option.mem_some_iff] at hb
      subst hb
      exact absurd hT.le (not_le.2 (lt_trans hlt hz))
    · exact absurd h0 (not_le.2 hlt)
  have hcount : (l'.map (·.zmin) ++ [hi]).countP (fun e => decide (e ≤ z)) = 0 := by
    rw [List.countP_eq_zero]
    intro e he
    simp only [decide_eq_true_eq, not_le]
    rcases List.mem_append.1 he with he | he
    · obtain ⟨s, hs', rfl⟩ := List.mem_map.1 he
      exact lt_of_lt_of_le hz (hT.zmin_ge s hs')
    · rw [List.mem_singleton.1 he]; exact lt_of_lt_of_le hz hT.le
  have hd : digitize z (l'.map (·.zmin) ++ [hi]) = .ok 0 := by
    unfold digitize
    rw [if_pos hT.edges_sorted, hcount]
  obtain ⟨init, s, rfl⟩ : ∃ init s, l' = init ++ [s] :=
    ⟨_, _, (List.dropLast_append_getLast hne).symm⟩
  refine ⟨s, hp.mem_iff.1 (by simp), ?_, ?_, ?_⟩
  · intro s' hs'
    have hm := hp.mem_iff.2 hs'
    rcases List.mem_append.1 hm with hm | hm
    · exact le_of_lt ((List.pairwise_append.1 hs).2.2 s' hm s (by simp))
    · rw [List.mem_singleton.1 hm]
  · intro hc
    exact absurd hc.1 (not_le.2 (lt_of_lt_of_le hz (hT.zmin_ge s (by simp))))
  · unfold zToSnap
    simp only [hzt, hd]
    rw [if_neg hg]
    unfold pyIndex
    simp

/-- C10, metadata of a snapshot: if the snapshot numbers are different, asking for the metadata of a
snapshot gives its row, and a number that is not in the table is rejected. -/
theorem C10_metadata_of_snapshot {K : Type} (l : List (SnapMeta K)) (hd : (l.map (·.index)).Nodup)
    (i : ℕ) :
    (∀ s ∈ l, s.index = i → extractSnapMeta l i = .ok s) ∧
    ((∀ s ∈ l, s.index ≠ i) → extractSnapMeta l i = .error .valueError) := by
  constructor
  · rintro s hs rfl
    have hm : s.index ∈ l.map (·.index) := List.mem_map.2 ⟨s, hs, rfl⟩
    unfold extractSnapMeta
    rw [if_pos hm]
    have hf : l.filter (fun t => decide (t.index = s.index)) = [s] := by
      induction l with
      | nil => simp at hs
      | cons a l ih =>
        simp only [List.map_cons, List.nodup_cons] at hd
        rcases List.mem_cons.1 hs with h | h
        · subst h
          rw [List.filter_cons_of_pos (by simp)]
          congr 1
          rw [List.filter_eq_nil_iff]
          intro t ht hc
          have : t.index = s.index := by simpa using hc
          exact hd.1 (this ▸ List.mem_map.2 ⟨t, ht, rfl⟩)
        · have hne : ¬ a.index = s.index := fun e =>
            hd.1 (e ▸ List.mem_map.2 ⟨s, h, rfl⟩)
          rw [List.filter_cons_of_neg (by simpa using hne)]
          exact ih hd.2 h (List.mem_map.2 ⟨s, h, rfl⟩)
    rw [hf]
  · intro h
    unfold extractSnapMeta
    rw [if_neg]
    intro hm
    obtain ⟨s, hs, e⟩ := List.mem_map.1 hm
    exact h s hs e

/-- C10, both lookups together: the metadata of the snapshot found for a redshift are those of an
interval that contains it. -/
theorem C10_lookup_metadata (l : List (SnapMeta K)) (hd : (l.map (·.index)).Nodup) (lo hi : K)
    (ht : Table l lo hi) (h0 : 0 ≤ lo) (z : K) (hz : lo ≤ z ∧ z < hi) :
    ∃ i s, zToSnap l z = .ok i ∧ extractSnapMeta l i = .ok s ∧ Covers s z := by
  obtain ⟨s, hs, hc, he, -⟩ := (C10_lookup_partial l lo hi ht h0 z).1 hz
  exact ⟨s.index, s, he, (C10_metadata_of_snapshot l hd _).1 s hs rfl, hc⟩

/-- A table of two snapshots covering redshifts 0 to 4. -/
def demoTable : List (SnapMeta ℚ) :=
  [ { index := 7, redshift := 4, zmin := 2, zmax := 4, tstart := 1, tend := 2, dmin := 2, dmax := 4,
      tdmin := 2, tdmax := 4 },
    { index := 8, redshift := 1, zmin := 0, zmax := 2, tstart := 2, tend := 4, dmin := 0, dmax := 2,
      tdmin := 0, tdmax := 2 } ]

theorem demoTable_table : Table demoTable 0 4 := by
  refine ⟨demoTable.reverse, List.reverse_perm _, ?_, by simp [demoTable], ?_⟩
  · simp [demoTable]
  · norm_num [demoTable, Tiles]

/-- The property C10 as stated does not hold of the code. -/
theorem C10_full_false : ¬ C10_full := by
  intro h
  obtain ⟨h1, -⟩ := h demoTable 0 4 (le_refl _) demoTable_table 4
  obtain ⟨s, -, -, -, he⟩ := h1 ⟨by norm_num, by norm_num⟩
  rw [C10_top_edge_fails demoTable 0 4 demoTable_table (le_refl _)] at he
  cases he

/-- Non-vacuity: the lookup finds snapshot 8 at redshift 1.5 and snapshot 7 at redshift 2. -/
example : zToSnap demoTable (3/2) = .ok 8 ∧ zToSnap demoTable 2 = .ok 7 := by decide +kernel

example : (demoTable.map (·.index)).Nodup ∧
    (extractSnapMeta demoTable 8).map (·.redshift) = .ok 1 := by decide +kernel

/-! ## C11 -/

/-- C11 at full strength: reading with a mass limit keeps every object at or above the limit. -/
def C11_full : Prop :=
  ∀ (ms : List ℚ) (cuts : List (ℚ × ℕ)) (h mass : ℚ) (inH : Bool), 0 < h →
    ms.Pairwise (· ≥ ·) → cuts ≠ [] → CutTable ms cuts →
    ∃ n, getMassIndex cuts h mass inH = .ok n ∧
      ∀ (i : ℕ) (m : ℚ), ms[i]? = some m → mass ≤ massIn h inH m → i < n

variable [IsStrictOrderedRing K]

/-- The limit the code compares with the cuts. -/
private theorem vals_length (cuts : List (K × ℕ)) (m : K) :
    ((cuts.map (fun c => c.1 - m)).filter (fun v => decide (v > 0))).length =
      cuts.countP (fun c => decide (m < c.1)) := by
  rw [← List.countP_eq_length_filter, List.countP_map]
  congr 1
  funext c
  simp [Function.comp, sub_pos]

/-- C11, exact result of the lookup: for a limit (in stored units) between the lowest and the
highest cut, the rows read are exactly the objects at or above the largest cut not above the
limit. -/
theorem C11_rows_read (ms : List K) (cuts : List (K × ℕ)) (hms : ms.Pairwise (· ≥ ·))
    (ht : CutTable ms cuts) (h mass : K) (inH : Bool)
    (hlow : ∃ c ∈ cuts, c.1 ≤ (if inH then mass else mass / h))
    (hhigh : ∃ c ∈ cuts, (if inH then mass else mass / h) < c.1) :
    ∃ n, getMassIndex cuts h mass inH = .ok n ∧ ∃ c ∈ cuts,
      c.1 ≤ (if inH then mass else mass / h) ∧
      (∀ d ∈ cuts, d.1 ≤ (if inH then mass else mass / h) → d.1 ≤ c.1) ∧
      ∀ (i : ℕ) (m : K), ms[i]? = some m → (i < n ↔ c.1 ≤ m) := by
  generalize hL : (if inH then mass else mass / h) = L at hlow hhigh ⊢
  obtain ⟨c, e1, e2, e3⟩ := first_cut cuts ht.decreasing L hlow
  have hpos : 0 < cuts.countP (fun c => decide (L < c.1)) := by
    rw [List.countP_pos_iff]
    obtain ⟨d, hd, hlt⟩ := hhigh
    exact ⟨d, hd, by simpa using hlt⟩
  have hne : cuts.countP (fun c => decide (L < c.1)) ≠ cuts.length := by
    intro h'
    rw [h'] at e1
    simp at e1
  have hc := List.mem_of_getElem? e1
  refine ⟨c.2, ?_, c, hc, e2, e3, ?_⟩
  · unfold getMassIndex
    simp only [hL, vals_length]
    rw [if_neg (by omega), if_neg hne]
    apply pyIndex_nat
    rw [List.getElem?_map, e1]; rfl
  · intro i m hi
    rw [ht.counts c hc]
    exact lt_countP_of_sorted ms hms c.1 i m hi

/-- C11, proved part (h units): no object at or above the limit is lost, for every limit from the
lowest cut to below the highest.  Missing: limits below the lowest cut, limits at or above the
highest, and limits given without h (refuted below). -/
theorem C11_nothing_lost_partial (ms : List K) (cuts : List (K × ℕ)) (hms : ms.Pairwise (· ≥ ·))
    (ht : CutTable ms cuts) (h mass : K)
    (hlow : ∃ c ∈ cuts, c.1 ≤ mass) (hhigh : ∃ c ∈ cuts, mass < c.1) :
    ∃ n, getMassIndex cuts h mass true = .ok n ∧
      ∀ (i : ℕ) (m : K), ms[i]? = some m → mass ≤ massIn h true m → i < n := by
  obtain ⟨n, e1, c, -, e2, -, e4⟩ := C11_rows_read ms cuts hms ht h mass true
    (by simpa using hlow) (by simpa using hhigh)
  refine ⟨n, e1, ?_⟩
  intro i m hi hm
  exact (e4 i m hi).2 (le_trans (by simpa using e2) (by simpa [massIn] using hm))

/-- C11, proved part (units without h): only objects whose mass is at least `limit / h²` are
sure to be read.  (With `h ≥ 1` nothing would be lost; real simulations have `h < 1`.) -/
theorem C11_no_h_partial (ms : List K) (cuts : List (K × ℕ)) (hms : ms.Pairwise (· ≥ ·))
    (ht : CutTable ms cuts) (h mass : K) (hh : 0 < h)
    (hlow : ∃ c ∈ cuts, c.1 ≤ mass / h) (hhigh : ∃ c ∈ cuts, mass / h < c.1) :
    ∃ n, getMassIndex cuts h mass false = .ok n ∧
      ∀ (i : ℕ) (m : K), ms[i]? = some m → mass / h ^ 2 ≤ massIn h false m → i < n := by
  obtain ⟨n, e1, c, -, e2, -, e4⟩ := C11_rows_read ms cuts hms ht h mass false
    (by simpa using hlow) (by simpa using hhigh)
  refine ⟨n, e1, ?_⟩
  intro i m hi hm
  refine (e4 i m hi).2 (le_trans (by simpa using e2) ?_)
  have h1 : mass / h ^ 2 ≤ m / h := by
    simpa [massIn, div_eq_mul_inv] using hm
  have h2 : mass / h ^ 2 = (mass / h) / h := by rw [pow_two, div_div]
  rw [h2] at h1
  exact (div_le_div_iff_of_pos_right hh).1 h1

/-- C11 is false without h units, for every value `0 < h < 1`, every table and every cut of it
below the highest: with the limit `h * cut`, an object of mass exactly the limit is not read.
(The limit has to be multiplied by h to compare with the stored masses; the code
divides.) -/
theorem C11_no_h_loses (cuts : List K) (hd : cuts.Pairwise (· > ·)) (h c : K) (h0 : 0 < h)
    (h1 : h < 1) (hc : c ∈ cuts) (hcpos : 0 < c) (htop : ∃ d ∈ cuts, c < d) :
    ∃ (m : K) (table : List (K × ℕ)), table.map (·.1) = cuts ∧ CutTable [m] table ∧
      h * c = massIn h false m ∧ getMassIndex table h (h * c) false = .ok 0 := by
  refine ⟨h * h * c, cuts.map (fun d => (d, [h * h * c].countP (fun x => decide (d ≤ x)))), ?_, ?_,
    ?_, ?_⟩
  · rw [List.map_map]
    simp [Function.comp_def]
  · refine ⟨?_, ?_⟩
    · rw [List.pairwise_map]; exact hd
    · intro d hd
      obtain ⟨x, -, rfl⟩ := List.mem_map.1 hd
      rfl
  · have : h ≠ 0 := ne_of_gt h0
    simp only [massIn]
    field_simp
    simp
  · have hne : h ≠ 0 := ne_of_gt h0
    have e : h * c / h = c := by field_simp
    obtain ⟨d, hdm, hdlt⟩ := htop
    obtain ⟨n, e1, c', hc', e2, e3, e4⟩ := C11_rows_read [h * h * c]
      (cuts.map (fun d => (d, [h * h * c].countP (fun x => decide (d ≤ x))))) (by simp)
      ⟨by rw [List.pairwise_map]; exact hd, by
        intro d hd
        obtain ⟨x, -, rfl⟩ := List.mem_map.1 hd
        rfl⟩ h (h * c) false
      ⟨_, List.mem_map.2 ⟨c, hc, rfl⟩, by simp [e]⟩
      ⟨_, List.mem_map.2 ⟨d, hdm, rfl⟩, by simpa [e] using hdlt⟩
    rw [e1]
    have hcc : c ≤ c'.1 := e3 _ (List.mem_map.2 ⟨c, hc, rfl⟩) (by simp [e])
    have hlt : h * h * c < c := by
      have : h * h < 1 := by nlinarith
      nlinarith
    have h2 : ¬ (0 < n) := by
      intro hn
      exact absurd ((e4 0 (h * h * c) rfl).1 hn) (not_le.2 (lt_of_lt_of_le hlt hcc))
    have : n = 0 := by omega
    rw [this]

/-- C11 is false below the lowest cut, for every table whose lowest cut is positive: with a limit
below it, an object between the limit and the lowest cut is not read. -/
theorem C11_below_lowest_loses (cuts : List K) (low : K) (h : K)
    (hlast : cuts.getLast? = some low) (hpos : 0 < low)
    (hmin : ∀ d ∈ cuts, low ≤ d) :
    ∃ (m : K) (table : List (K × ℕ)), table.map (·.1) = cuts ∧
      (∀ t ∈ table, t.2 = [m].countP (fun x => decide (t.1 ≤ x))) ∧
      0 < m ∧ getMassIndex table h m true = .ok 0 := by
  have hlt : low / 2 < low := by linarith
  have hcnt : ∀ d ∈ cuts, [low / 2].countP (fun x => decide (d ≤ x)) = 0 := by
    intro d hd
    have : ¬ d ≤ low / 2 := not_le.2 (lt_of_lt_of_le hlt (hmin d hd))
    simp [this]
  refine ⟨low / 2, cuts.map (fun d => (d, [low / 2].countP (fun x => decide (d ≤ x)))), ?_, ?_,
    by linarith, ?_⟩
  · rw [List.map_map]
    simp [Function.comp_def]
  · intro t ht
    obtain ⟨x, -, rfl⟩ := List.mem_map.1 ht
    rfl
  · unfold getMassIndex
    simp only [if_true, vals_length]
    have hall : (cuts.map (fun d => (d, [low / 2].countP (fun x => decide (d ≤ x))))).countP
        (fun c => decide (low / 2 < c.1)) = cuts.length := by
      rw [List.countP_eq_length.2]
      · simp
      · intro a ha
        obtain ⟨x, hx, rfl⟩ := List.mem_map.1 ha
        simpa using lt_of_lt_of_le hlt (hmin x hx)
    obtain ⟨init, rfl⟩ : ∃ init, cuts = init ++ [low] := by
      rw [List.getLast?_eq_some_iff] at hlast
      exact hlast
    rw [hall, if_neg (by simp), if_pos (by simp)]
    have hn : ¬ low ≤ low / 2 := not_le.2 hlt
    unfold pyIndex
    simp [hn]

/-- C11 is false above the highest cut: nothing at all is read, although objects may lie
above it. -/
theorem C11_above_highest_loses (cuts : List (K × ℕ)) (h mass : K)
    (hmax : ∀ c ∈ cuts, c.1 ≤ mass) : getMassIndex cuts h mass true = .ok 0 := by
  unfold getMassIndex
  simp only [if_true, vals_length]
  have : cuts.countP (fun c => decide (mass < c.1)) = 0 := by
    rw [List.countP_eq_zero]
    intro c hc
    simpa using hmax c hc
  simp [this]

/-- The property C11 as stated does not hold of the code. -/
theorem C11_full_false : ¬ C11_full := by
  intro hf
  obtain ⟨m, table, e1, e2, e3, e4⟩ := C11_no_h_loses [100, 10, (1 : ℚ)] (by norm_num) (7/10) 10
    (by norm_num) (by norm_num) (by simp) (by norm_num) ⟨100, by simp, by norm_num⟩
  obtain ⟨n, e5, e6⟩ := hf [m] table (7/10) (7/10 * 10) false (by norm_num) (by simp)
    (by rintro rfl; simp at e1) e2
  rw [e4] at e5
  cases e5
  exact absurd (e6 0 m rfl (le_of_eq e3)) (by omega)

/-- Non-vacuity for the proved parts: a table of three cuts and four masses. -/
example : CutTable [50, 20, 10, (2 : ℚ)] [(100, 0), (10, 3), (1, 4)] ∧
    getMassIndex [(100, 0), (10, 3), ((1 : ℚ), 4)] (7/10) 15 true = .ok 3 := by
  refine ⟨⟨by norm_num, ?_⟩, by decide +kernel⟩
  decide +kernel

end Verif.Sim
