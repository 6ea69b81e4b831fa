import Verif.Lemmas.LCFile

/-!
# Lemmas about adding properties to lightcones
-/

set_option linter.unusedSectionVars false

namespace Verif.LC

open Verif.Sim (Err SnapMeta)
open Matrix

variable {K : Type} [Field K] [LinearOrder K] [IsStrictOrderedRing K] [FloorRing K]

/-! ## Changes of one file -/

theorem runFile_newSets (names : List String) (f : LCFile K) (g : Option (LCFile K))
    (rows : List (Row K)) (full : PyDict String (List K)) (hr : f.rows = some rows)
    (hf : f.full = some full) (h : runFile (names.map FEff.newSet) (some f) = .ok g) :
    ∃ full', g = some { f with full := some full' } ∧ names.Nodup ∧
      (∀ k ∈ names, full.get? k = none) ∧
      ∀ k, full'.get? k = if k ∈ names then some (List.replicate rows.length 0)
        else full.get? k := by
  induction names generalizing f full with
  | nil =>
    simp only [List.map_nil, runFile, Except.ok.injEq] at h
    subst h
    refine ⟨full, by rw [← hf], List.nodup_nil, by simp, by simp⟩
  | cons n names ih =>
    rw [List.map_cons, runFile] at h
    simp only [stepFile, LCFile.step, hr, hf] at h
    by_cases hh : full.has n = true
    · rw [if_pos hh] at h
      simp at h
    · rw [if_neg hh] at h
      by_cases hz : rows = []
      · rw [if_pos hz] at h
        simp at h
      rw [if_neg hz] at h
      simp only at h
      obtain ⟨full', h1, h2, h3, h4⟩ := ih _ (full.set n (List.replicate rows.length 0)) rfl rfl h
      have hn : full.get? n = none := by
        unfold PyDict.has at hh
        simpa using hh
      have hnm : n ∉ names := by
        intro hm
        have := h3 n hm
        rw [PyDict.get?_set, if_pos rfl] at this
        cases this
      refine ⟨full', by rw [h1, hr], List.nodup_cons.2 ⟨hnm, h2⟩, ?_, ?_⟩
      · intro k hk
        rcases List.mem_cons.1 hk with rfl | hk
        · exact hn
        · have := h3 k hk
          rw [PyDict.get?_set] at this
          split at this
          · cases this
          · exact this
      · intro k
        rw [h4 k, PyDict.get?_set]
        by_cases hk : k ∈ names
        · simp [hk]
        · by_cases hkn : n = k
          · subst hkn
            simp [hk]
          · have : ¬ k = n := fun e => hkn e.symm
            simp [hk, hkn, this]

/-- A write of values into a dataset. -/
def toWrite (w : String × ℕ × List K) : FEff K := .write w.1 w.2.1 w.2.2

theorem runFile_writes (ws : List (String × ℕ × List K)) (f : LCFile K) (g : Option (LCFile K))
    (full : PyDict String (List K)) (hf : f.full = some full)
    (h : runFile (ws.map toWrite) (some f) = .ok g) :
    ∃ full', g = some { f with full := some full' } ∧
      ∀ k, full'.get? k = (full.get? k).map (fun l =>
        (ws.filter (fun w => decide (w.1 = k))).foldl (fun l w => splice l w.2.1 w.2.2) l) := by
  induction ws generalizing f full with
  | nil =>
    simp only [List.map_nil, runFile, Except.ok.injEq] at h
    subst h
    refine ⟨full, by rw [← hf], by simp⟩
  | cons w ws ih =>
    rw [List.map_cons, runFile] at h
    simp only [stepFile, LCFile.step, toWrite, hf] at h
    rcases hl : full.get? w.1 with - | l
    · rw [hl] at h
      simp at h
    · rw [hl] at h
      simp only at h
      obtain ⟨full', h1, h2⟩ := ih _ (full.set w.1 (splice l w.2.1 w.2.2)) rfl h
      refine ⟨full', h1, ?_⟩
      intro k
      rw [h2 k, PyDict.get?_set]
      by_cases hk : w.1 = k
      · subst hk
        simp [hl]
      · simp [hk]

/-! ## The plan for one file -/

/-- The objects of one snapshot in a file. -/
def blockOf (rows : List (Row K)) (s : SnapMeta K) : List (Row K) :=
  rows.filter (fun r => decide (r.snap = s.index))

/-- Where they start. -/
def startOf (rows : List (Row K)) (s : SnapMeta K) : ℕ :=
  if blockOf rows s = [] then 0 else rows.findIdx (fun r => decide (r.snap = s.index))

/-- The values written for one snapshot and key. -/
def fillOf (add : Adding K) (f : LCFile K) (rows : List (Row K)) (s : SnapMeta K) (key : String) :
    List (String × ℕ × List K) :=
  match add.fill s key f (blockOf rows s) with
  | .error _ => []
  | .ok vs => vs.map (fun v => (v.1, startOf rows s, v.2))

/-- All values written. -/
def writesOf (snaps : List (SnapMeta K)) (add : Adding K) (keys : List String) (f : LCFile K)
    (rows : List (Row K)) : List (String × ℕ × List K) :=
  snaps.flatMap (fun s => keys.flatMap (fillOf add f rows s))

/-- Of steps for each of `n` files, those for file `i`. -/
theorem effsOf_range (n i : ℕ) (hi : i < n) (g : ℕ → List (Step K))
    (hg : ∀ j, j ≠ i → effsOf i (g j) = []) :
    effsOf i ((List.range n).flatMap g) = effsOf i (g i) := by
  induction n with
  | zero => omega
  | succ n ih =>
    rw [List.range_succ, List.flatMap_append, effsOf_append]
    rcases Nat.lt_or_ge i n with h | h
    · rw [ih h]
      simp [hg n (by omega)]
    · have : i = n := by omega
      subst this
      have h0 : effsOf i ((List.range i).flatMap g) = [] := by
        rw [effsOf_flatMap, List.flatMap_eq_nil_iff]
        intro j hj
        exact hg j (by have := List.mem_range.1 hj; omega)
      simp [h0]

theorem effsOf_range_none (n i : ℕ) (hi : n ≤ i) (g : ℕ → List (Step K))
    (hg : ∀ j, j ≠ i → effsOf i (g j) = []) :
    effsOf i ((List.range n).flatMap g) = [] := by
  rw [effsOf_flatMap, List.flatMap_eq_nil_iff]
  intro j hj
  exact hg j (by have := List.mem_range.1 hj; omega)

theorem addPlanG_eq (snaps : List (SnapMeta K)) (add : Adding K) (n : ℕ) (keys : List String)
    (d : Folder K) :
    addPlanG snaps add n keys d = startPlan add n keys ++ writePlan snaps add n keys d ++
      endPlan n := rfl

theorem effsOf_startPlan (add : Adding K) (n : ℕ) (keys : List String) (i : ℕ) (hi : i < n) :
    effsOf i (startPlan add n keys) = FEff.beginExtra :: .setDone false ::
      (keys.flatMap add.names).map FEff.newSet := by
  unfold startPlan
  rw [effsOf_range n i hi]
  · rw [effsOf_append, effsOf_map_same, if_pos rfl, effsOf_cons_eff, if_pos rfl, effsOf_cons_eff,
      if_pos rfl]
    rfl
  · intro j hj
    rw [effsOf_append, effsOf_map_same, if_neg hj, effsOf_cons_eff, if_neg hj, effsOf_cons_eff,
      if_neg hj]
    rfl

theorem effsOf_endPlan (n i : ℕ) (hi : i < n) :
    effsOf i (endPlan n : List (Step K)) = [FEff.beginExtra, .setDone true] := by
  unfold endPlan
  rw [effsOf_range n i hi]
  · rw [effsOf_cons_eff, if_pos rfl, effsOf_cons_eff, if_pos rfl]
    rfl
  · intro j hj
    rw [effsOf_cons_eff, if_neg hj, effsOf_cons_eff, if_neg hj]
    rfl

theorem effsOf_writePlan (snaps : List (SnapMeta K)) (add : Adding K) (n : ℕ) (keys : List String)
    (d : Folder K) (i : ℕ) (hi : i < n) (f : LCFile K) (rows : List (Row K)) (hd : d i = some f)
    (hr : f.rows = some rows) :
    effsOf i (writePlan snaps add n keys d) = (writesOf snaps add keys f rows).map toWrite := by
  unfold writePlan writesOf
  rw [effsOf_flatMap, List.map_flatMap]
  congr 1
  funext s
  rw [effsOf_flatMap, List.map_flatMap]
  congr 1
  funext key
  rw [effsOf_range n i hi]
  · simp only [hd, hr]
    unfold fillOf
    change effsOf i (match add.fill s key f (blockOf rows s) with
        | .error e => [.fail e]
        | .ok vs => vs.map (fun v => .eff i (.write v.1 (startOf rows s) v.2))) = _
    rcases add.fill s key f (blockOf rows s) with e | vs
    · rfl
    · simp only
      rw [effsOf_map_same, if_pos rfl, List.map_map]
      rfl
  · intro j hj
    rcases d j with - | f'
    · rfl
    · simp only
      rcases f'.rows with - | rows'
      · rfl
      · simp only
        rcases add.fill s key f' _ with e | vs
        · rfl
        · simp only
          rw [effsOf_map_same, if_neg hj]

/-- A plan without exceptions: the values were found. -/
theorem fill_ok (snaps : List (SnapMeta K)) (add : Adding K) (n : ℕ) (keys : List String)
    (d : Folder K) (i : ℕ) (hi : i < n) (f : LCFile K) (rows : List (Row K)) (hd : d i = some f)
    (hr : f.rows = some rows) (h : NoFail (writePlan snaps add n keys d)) (s : SnapMeta K)
    (hs : s ∈ snaps) (key : String) (hk : key ∈ keys) :
    ∃ vs, add.fill s key f (blockOf rows s) = .ok vs := by
  unfold writePlan at h
  have h1 := (noFail_flatMap.1 ((noFail_flatMap.1 ((noFail_flatMap.1 h) s hs)) key hk)) i
    (List.mem_range.2 hi)
  simp only [hd, hr] at h1
  change NoFail (match add.fill s key f (blockOf rows s) with
        | .error e => [.fail e]
        | .ok vs => vs.map (fun v => .eff i (.write v.1 (startOf rows s) v.2))) at h1
  rcases hf : add.fill s key f (blockOf rows s) with e | vs
  · rw [hf] at h1
    exact absurd rfl (h1 (.fail e) (by simp) e)
  · exact ⟨vs, rfl⟩

/-! ## Filling a dataset -/

/-- The objects of a file come snapshot by snapshot. -/
structure Blocked (rows : List (Row K)) (snaps : List (SnapMeta K)) : Prop where
  eq : rows = snaps.flatMap (blockOf rows)
  nodup : (snaps.map (·.index)).Nodup

theorem splice_at {a b c v : List K} (h : b.length = v.length) :
    splice (a ++ (b ++ c)) a.length v = a ++ v ++ c := by
  unfold splice
  rw [List.take_left, List.drop_append]
  simp [h]

theorem findIdx_split (a b : List (Row K)) (m : ℕ) (ha : ∀ r ∈ a, r.snap ≠ m) (r : Row K)
    (hr : r.snap = m) :
    (a ++ r :: b).findIdx (fun r => decide (r.snap = m)) = a.length := by
  induction a with
  | nil => simp [List.findIdx_cons, hr]
  | cons x a ih =>
    have hx := ha x (by simp)
    rw [List.cons_append, List.findIdx_cons, ih (fun r hr => ha r (by simp [hr]))]
    simp [hx]

theorem fill_blocks (P : Row K → K → Prop) (rows : List (Row K)) :
    ∀ (snaps : List (SnapMeta K)) (vals : SnapMeta K → List K) (done : List (Row K))
      (dn : List K), rows = done ++ snaps.flatMap (blockOf rows) → (snaps.map (·.index)).Nodup →
      (∀ s ∈ snaps, ∀ r ∈ done, r.snap ≠ s.index) → List.Forall₂ P done dn →
      (∀ s ∈ snaps, List.Forall₂ P (blockOf rows s) (vals s)) →
      List.Forall₂ P rows (snaps.foldl (fun l s => splice l (startOf rows s) (vals s))
        (dn ++ List.replicate (snaps.flatMap (blockOf rows)).length 0)) := by
  intro snaps
  induction snaps with
  | nil =>
    intro vals done dn h1 h2 h3 h4 h5
    simp only [List.flatMap_nil, List.append_nil] at h1
    simpa [h1] using h4
  | cons s snaps ih =>
    intro vals done dn h1 h2 h3 h4 h5
    rw [List.foldl_cons]
    have hlen := h5 s (by simp) |>.length_eq
    have hdn := h4.length_eq
    have hsp : splice (dn ++ List.replicate ((s :: snaps).flatMap (blockOf rows)).length 0)
        (startOf rows s) (vals s) =
        (dn ++ vals s) ++ List.replicate (snaps.flatMap (blockOf rows)).length 0 := by
      rw [List.flatMap_cons, List.length_append, List.replicate_add]
      unfold startOf
      by_cases hb : blockOf rows s = []
      · rw [if_pos hb]
        rw [hb] at hlen ⊢
        have : vals s = [] := List.eq_nil_of_length_eq_zero hlen.symm
        simp [this, splice]
      · rw [if_neg hb]
        obtain ⟨r, bs, hbs⟩ := List.exists_cons_of_ne_nil hb
        have hr : r.snap = s.index := by
          have : r ∈ blockOf rows s := by rw [hbs]; simp
          unfold blockOf at this
          simpa using (List.mem_filter.1 this).2
        have hidx : rows.findIdx (fun r => decide (r.snap = s.index)) = done.length := by
          rw [List.flatMap_cons, hbs] at h1
          have := findIdx_split done (bs ++ snaps.flatMap (blockOf rows)) s.index
            (h3 s (by simp)) r hr
          rw [← this]
          congr 1
        rw [hidx, hdn]
        exact splice_at (by simp [hlen])
    rw [hsp]
    rw [List.map_cons, List.nodup_cons] at h2
    refine ih vals (done ++ blockOf rows s) (dn ++ vals s) ?_ h2.2 ?_ ?_ ?_
    · rw [List.append_assoc, ← List.flatMap_cons]
      exact h1
    · intro t ht r hr
      rcases List.mem_append.1 hr with hr | hr
      · exact h3 t (by simp [ht]) r hr
      · unfold blockOf at hr
        have hr' : r.snap = s.index := by simpa using (List.mem_filter.1 hr).2
        rw [hr']
        intro he
        exact h2.1 (List.mem_map.2 ⟨t, ht, he.symm⟩)
    · exact List.rel_append h4 (h5 s (by simp))
    · intro t ht
      exact h5 t (by simp [ht])

/-- One entry of a list of named values, found by its name. -/
theorem filter_names (vs : List (String × List K)) (k : String) (st : ℕ)
    (hnd : (vs.map (·.1)).Nodup) (v : List K) (hv : (k, v) ∈ vs) :
    (vs.map (fun v => (v.1, st, v.2))).filter (fun w => decide (w.1 = k)) = [(k, st, v)] := by
  induction vs with
  | nil => simp at hv
  | cons x vs ih =>
    rw [List.map_cons, List.nodup_cons] at hnd
    rw [List.map_cons]
    rcases List.mem_cons.1 hv with h | h
    · subst h
      rw [List.filter_cons_of_pos (by simp)]
      congr 1
      rw [List.filter_eq_nil_iff]
      intro w hw
      obtain ⟨y, hy, rfl⟩ := List.mem_map.1 hw
      simp only [decide_eq_true_eq]
      intro he
      exact hnd.1 (List.mem_map.2 ⟨y, hy, he⟩)
    · rw [List.filter_cons_of_neg]
      · exact ih hnd.2 h
      · simp only [decide_eq_true_eq]
        intro he
        exact hnd.1 (List.mem_map.2 ⟨(k, v), h, he.symm⟩)

theorem filter_none (vs : List (String × List K)) (k : String) (st : ℕ)
    (hk : k ∉ vs.map (·.1)) :
    (vs.map (fun v => (v.1, st, v.2))).filter (fun w => decide (w.1 = k)) = [] := by
  rw [List.filter_eq_nil_iff]
  intro w hw
  obtain ⟨y, hy, rfl⟩ := List.mem_map.1 hw
  simp only [decide_eq_true_eq]
  intro he
  exact hk (List.mem_map.2 ⟨y, hy, he⟩)

/-- What a description of added values guarantees: one list of values for each name. -/
def Fills (add : Adding K) (f : LCFile K) (P : String → Row K → K → Prop) : Prop :=
  ∀ s key block vs, add.fill s key f block = .ok vs → (∀ r ∈ block, r.snap = s.index) →
    vs.map (·.1) = add.names key ∧ ∀ v ∈ vs, List.Forall₂ (P v.1) block v.2

/-- For one snapshot, one list of values is written to each new dataset. -/
theorem filter_keys (add : Adding K) (f : LCFile K) (rows : List (Row K))
    (P : String → Row K → K → Prop) (hP : Fills add f P) (s : SnapMeta K) (keys : List String)
    (hnd : (keys.flatMap add.names).Nodup)
    (hok : ∀ key ∈ keys, ∃ vs, add.fill s key f (blockOf rows s) = .ok vs)
    (k : String) (hk : k ∈ keys.flatMap add.names) :
    ∃ v, (keys.flatMap (fillOf add f rows s)).filter (fun w => decide (w.1 = k)) =
      [(k, startOf rows s, v)] ∧ List.Forall₂ (P k) (blockOf rows s) v := by
  have hblock : ∀ r ∈ blockOf rows s, r.snap = s.index := by
    intro r hr
    unfold blockOf at hr
    simpa using (List.mem_filter.1 hr).2
  induction keys with
  | nil => simp at hk
  | cons key keys ih =>
    rw [List.flatMap_cons] at hk hnd
    rw [List.flatMap_cons, List.filter_append]
    obtain ⟨vs, hvs⟩ := hok key (by simp)
    obtain ⟨hn, hf⟩ := hP s key _ vs hvs hblock
    have hfo : fillOf add f rows s key = vs.map (fun v => (v.1, startOf rows s, v.2)) := by
      unfold fillOf
      rw [hvs]
    rw [List.nodup_append] at hnd
    obtain ⟨hnd1, hnd2, hdis⟩ := hnd
    by_cases hkey : k ∈ add.names key
    · have hrest : (keys.flatMap (fillOf add f rows s)).filter (fun w => decide (w.1 = k)) = [] := by
        rw [List.filter_flatMap, List.flatMap_eq_nil_iff]
        intro key' hkey'
        obtain ⟨vs', hvs'⟩ := hok key' (by simp [hkey'])
        have hfo' : fillOf add f rows s key' =
            vs'.map (fun v => (v.1, startOf rows s, v.2)) := by
          unfold fillOf
          rw [hvs']
        rw [hfo']
        apply filter_none
        rw [(hP s key' _ vs' hvs' hblock).1]
        intro hm
        exact hdis k hkey k (List.mem_flatMap.2 ⟨key', hkey', hm⟩) rfl
      rw [hrest, List.append_nil, hfo]
      have hm : k ∈ vs.map (·.1) := by rw [hn]; exact hkey
      obtain ⟨⟨k', v⟩, hv, rfl⟩ := List.mem_map.1 hm
      exact ⟨v, filter_names vs k' _ (by rw [hn]; exact hnd1) v hv, hf _ hv⟩
    · have hfirst : (fillOf add f rows s key).filter (fun w => decide (w.1 = k)) = [] := by
        rw [hfo]
        apply filter_none
        rw [hn]
        exact hkey
      rw [hfirst, List.nil_append]
      rcases List.mem_append.1 hk with h | h
      · exact absurd h hkey
      · exact ih hnd2 (fun key' h' => hok key' (by simp [h'])) h

/-- A file after adding properties. -/
def LCFile.added (f : LCFile K) (full : PyDict String (List K)) : LCFile K :=
  { f with full := some full, extraInit := some true, extraDone := some true }

/-- The changes of one file by a complete call. -/
def addEffs (snaps : List (SnapMeta K)) (add : Adding K) (keys : List String) (f : LCFile K)
    (rows : List (Row K)) : List (FEff K) :=
  (FEff.beginExtra :: .setDone false :: (keys.flatMap add.names).map FEff.newSet) ++
    (writesOf snaps add keys f rows).map toWrite ++ [FEff.beginExtra, .setDone true]

theorem effsOf_addPlanG (snaps : List (SnapMeta K)) (add : Adding K) (n : ℕ) (keys : List String)
    (d : Folder K) (i : ℕ) (hi : i < n) (f : LCFile K) (rows : List (Row K)) (hd : d i = some f)
    (hr : f.rows = some rows) :
    effsOf i (addPlanG snaps add n keys d) = addEffs snaps add keys f rows := by
  rw [addPlanG_eq, effsOf_append, effsOf_append, effsOf_startPlan add n keys i hi,
    effsOf_writePlan snaps add n keys d i hi f rows hd hr, effsOf_endPlan n i hi]
  rfl

/-- **What a complete call adds to one file.** -/
theorem add_file_ok (snaps : List (SnapMeta K)) (add : Adding K) (keys : List String)
    (f : LCFile K) (g : Option (LCFile K)) (rows : List (Row K)) (full : PyDict String (List K))
    (hr : f.rows = some rows) (hf : f.full = some full)
    (hok : ∀ s ∈ snaps, ∀ key ∈ keys, ∃ vs, add.fill s key f (blockOf rows s) = .ok vs)
    (hrun : runFile (addEffs snaps add keys f rows) (some f) = .ok g)
    (hb : Blocked rows snaps) (P : String → Row K → K → Prop) (hP : Fills add f P) :
    ∃ full', g = some (f.added full') ∧
      (∀ k ∈ keys.flatMap add.names, full.get? k = none ∧
        ∃ l, full'.get? k = some l ∧ List.Forall₂ (P k) rows l) ∧
      (∀ k, k ∉ keys.flatMap add.names → full'.get? k = full.get? k) := by
  unfold addEffs at hrun
  obtain ⟨m2, h2, h3⟩ := (runFile_append _ _ _ _).1 hrun
  obtain ⟨m1, h4, h5⟩ := (runFile_append _ _ _ _).1 h2
  simp only [runFile, stepFile, LCFile.step] at h4
  obtain ⟨full1, g1, g2, g3, g4⟩ := runFile_newSets (keys.flatMap add.names)
    { f with extraInit := some true, extraDone := some false } m1 rows full hr hf h4
  subst g1
  obtain ⟨full2, g5, g6⟩ := runFile_writes _ _ _ full1 rfl h5
  subst g5
  simp only [runFile, stepFile, LCFile.step, Except.ok.injEq] at h3
  refine ⟨full2, ?_, ?_, ?_⟩
  · rw [← h3]
    rfl
  · intro k hk
    refine ⟨g3 k hk, ?_⟩
    rw [g6 k, g4 k, if_pos hk]
    simp only [Option.map_some]
    refine ⟨_, rfl, ?_⟩
    have hex : ∀ s ∈ snaps, ∃ v, (keys.flatMap (fillOf add f rows s)).filter
        (fun w => decide (w.1 = k)) = [(k, startOf rows s, v)] ∧
        List.Forall₂ (P k) (blockOf rows s) v := fun s hs =>
      filter_keys add f rows P hP s keys g2
        (fun key hkey => hok s hs key hkey) k hk
    choose! vals hvals using hex
    have hw : (writesOf snaps add keys f rows).filter (fun w => decide (w.1 = k)) =
        snaps.map (fun s => (k, startOf rows s, vals s)) := by
      unfold writesOf
      rw [List.filter_flatMap, List.map_eq_flatMap]
      apply List.flatMap_congr
      intro s hs
      exact (hvals s hs).1
    rw [hw, List.foldl_map]
    have := fill_blocks (P k) rows snaps vals [] [] (by simpa using hb.eq) hb.nodup (by simp)
      List.Forall₂.nil (fun s hs => (hvals s hs).2)
    rw [← hb.eq, List.nil_append] at this
    exact this
  · intro k hk
    rw [g6 k, g4 k, if_neg hk]
    have hw : (writesOf snaps add keys f rows).filter (fun w => decide (w.1 = k)) = [] := by
      unfold writesOf
      rw [List.filter_flatMap, List.flatMap_eq_nil_iff]
      intro s hs
      rw [List.filter_flatMap, List.flatMap_eq_nil_iff]
      intro key hkey
      obtain ⟨vs, hvs⟩ := hok s hs key hkey
      unfold fillOf
      rw [hvs]
      apply filter_none
      rw [(hP s key _ vs hvs (by
        intro r hr
        unfold blockOf at hr
        simpa using (List.mem_filter.1 hr).2)).1]
      intro hm
      exact hk (List.mem_flatMap.2 ⟨key, hkey, hm⟩)
    rw [hw]
    simp

/-- The same for a whole call. -/
theorem addPlanG_ok (snaps : List (SnapMeta K)) (add : Adding K) (n : ℕ) (keys : List String)
    (d d' : Folder K) (h : exec (addPlanG snaps add n keys d) d = (d', .ok ())) (i : ℕ)
    (hi : i < n) (f : LCFile K) (rows : List (Row K)) (full : PyDict String (List K))
    (hd : d i = some f) (hr : f.rows = some rows) (hf : f.full = some full)
    (hb : Blocked rows snaps) (P : String → Row K → K → Prop) (hP : Fills add f P) :
    ∃ full', d' i = some (f.added full') ∧
      (∀ k ∈ keys.flatMap add.names, full.get? k = none ∧
        ∃ l, full'.get? k = some l ∧ List.Forall₂ (P k) rows l) ∧
      (∀ k, k ∉ keys.flatMap add.names → full'.get? k = full.get? k) := by
  obtain ⟨hnf, hrun⟩ := exec_ok h
  have h1 := hrun i
  rw [effsOf_addPlanG snaps add n keys d i hi f rows hd hr, hd] at h1
  rw [addPlanG_eq] at hnf
  obtain ⟨-, hnf2⟩ := NoFail.append.1 (NoFail.append.1 hnf).1
  exact add_file_ok snaps add keys f _ rows full hr hf
    (fun s hs key hkey => fill_ok snaps add n keys d i hi f rows hd hr hnf2 s hs key hkey) h1 hb P hP

/-- Other files stay as they are. -/
theorem addPlanG_other (snaps : List (SnapMeta K)) (add : Adding K) (n : ℕ) (keys : List String)
    (d : Folder K) (i : ℕ) (hi : n ≤ i) :
    effsOf i (addPlanG snaps add n keys d) = [] := by
  rw [addPlanG_eq, effsOf_append, effsOf_append]
  have h1 : effsOf i (startPlan add n keys) = [] := by
    unfold startPlan
    apply effsOf_range_none n i hi
    intro j hj
    rw [effsOf_append, effsOf_map_same, if_neg hj, effsOf_cons_eff, if_neg hj, effsOf_cons_eff,
      if_neg hj]
    rfl
  have h2 : effsOf i (writePlan snaps add n keys d) = [] := by
    unfold writePlan
    rw [effsOf_flatMap, List.flatMap_eq_nil_iff]
    intro s _
    rw [effsOf_flatMap, List.flatMap_eq_nil_iff]
    intro key _
    apply effsOf_range_none n i hi
    intro j hj
    rcases d j with - | f'
    · rfl
    · simp only
      rcases f'.rows with - | rows'
      · rfl
      · simp only
        rcases add.fill s key f' _ with e | vs
        · rfl
        · simp only
          rw [effsOf_map_same, if_neg hj]
  have h3 : effsOf i (endPlan n : List (Step K)) = [] := by
    unfold endPlan
    apply effsOf_range_none n i hi
    intro j hj
    rw [effsOf_cons_eff, if_neg hj, effsOf_cons_eff, if_neg hj]
    rfl
  rw [h1, h2, h3]
  rfl

end Verif.LC
