import Verif.Props.LCFileEx
import Mathlib.Tactic.IntervalCases

/-!
# C33, C34: adding properties to a set in which a lightcone is empty
-/

set_option linter.unusedSectionVars false

namespace Verif.LC

open Verif.Sim (Err SnapMeta)

section
variable {K : Type} [Field K] [LinearOrder K] [IsStrictOrderedRing K] [FloorRing K]

/-- New datasets of a lightcone with objects. -/
theorem exec_newSets (i : ℕ) (names : List String) (hnd : names.Nodup) (c : Folder K) (f : LCFile K)
    (rows : List (Row K)) (full : PyDict String (List K)) (hf : c i = some f) (hr : f.rows = some rows)
    (hne : rows ≠ []) (hfu : f.full = some full) (hno : ∀ k ∈ names, full.get? k = none) :
    ∃ c' full', exec (names.map (fun k => Step.eff i (FEff.newSet k))) c = (c', .ok ()) ∧
      c' i = some { f with full := some full' } ∧ (∀ j, j ≠ i → c' j = c j) ∧
      ∀ k, full'.get? k = if k ∈ names then some (List.replicate rows.length 0) else full.get? k := by
  induction names generalizing c f full with
  | nil => exact ⟨c, full, rfl, by rw [hf, ← hfu], fun _ _ => rfl, by simp⟩
  | cons k names ih =>
    obtain ⟨h1, h2⟩ := List.nodup_cons.1 hnd
    have hk : full.has k = false := by simp [PyDict.has, hno k (by simp)]
    have hstep : stepFile (c i) (FEff.newSet k) =
        .ok { f with full := some (full.set k (List.replicate rows.length 0)) } := by
      rw [hf]
      simp only [stepFile, LCFile.step, hr, hfu, hk, Bool.false_eq_true, if_false, if_neg hne]
    obtain ⟨c', full', a1, a2, a3, a4⟩ := ih h2
      (Function.update c i (some { f with full := some (full.set k (List.replicate rows.length 0)) }))
      { f with full := some (full.set k (List.replicate rows.length 0)) }
      (full.set k (List.replicate rows.length 0)) (by simp) hr rfl (by
        intro q hq
        rw [PyDict.get?_set, if_neg (fun e => h1 (by rw [e]; exact hq))]
        exact hno q (by simp [hq]))
    refine ⟨c', full', ?_, a2, ?_, ?_⟩
    · rw [List.map_cons, exec, hstep]
      exact a1
    · intro j hj
      rw [a3 j hj, Function.update_of_ne hj]
    · intro q
      rw [a4 q, PyDict.get?_set]
      by_cases hq : q ∈ names
      · simp [hq]
      · by_cases hqk : k = q
        · simp [hqk]
        · have : ¬ q = k := fun e => hqk e.symm
          simp [hq, hqk, this]

/-- The beginning of a call: the lightcones before the `m`-th have the new datasets, with zeros. -/
theorem exec_start (names : List String) (hnd : names.Nodup) (d : Folder K) (m : ℕ)
    (hd : ∀ j, j < m → ∃ f rows full, d j = some f ∧ f.rows = some rows ∧ rows ≠ [] ∧ f.full = some full ∧
      ∀ k ∈ names, full.get? k = none) :
    ∃ c, exec ((List.range m).flatMap (fun i => [Step.eff i FEff.beginExtra, .eff i (.setDone false)] ++
        names.map (fun k => Step.eff i (FEff.newSet k)))) d = (c, .ok ()) ∧
      (∀ j, j < m → ∃ f rows full full', d j = some f ∧ f.rows = some rows ∧ f.full = some full ∧
        c j = some { f with extraInit := some true, extraDone := some false, full := some full' } ∧
        ∀ k, full'.get? k = if k ∈ names then some (List.replicate rows.length 0) else full.get? k) ∧
      ∀ j, m ≤ j → c j = d j := by
  induction m with
  | zero => exact ⟨d, rfl, by intro j hj; omega, fun _ _ => rfl⟩
  | succ m ih =>
    obtain ⟨c, a1, a2, a3⟩ := ih (fun j hj => hd j (by omega))
    obtain ⟨f, rows, full, h1, h2, h3, h4, h5⟩ := hd m (by omega)
    have hcm : c m = some f := by rw [a3 m le_rfl, h1]
    obtain ⟨c', full', b1, b2, b3, b4⟩ := exec_newSets m names hnd
      (Function.update (Function.update c m (some { f with extraInit := some true })) m
        (some { f with extraInit := some true, extraDone := some false }))
      { f with extraInit := some true, extraDone := some false } rows full (by simp) h2 h3 h4 h5
    refine ⟨c', ?_, ?_, ?_⟩
    · rw [List.range_succ, List.flatMap_append, exec_append a1]
      simp only [List.flatMap_cons, List.flatMap_nil, List.append_nil, List.cons_append, List.nil_append, exec, hcm,
        stepFile, LCFile.step, Function.update_self]
      exact b1
    · intro j hj
      by_cases hjm : j = m
      · subst hjm
        exact ⟨f, rows, full, full', h1, h2, h4, b2, b4⟩
      · rw [b3 j hjm, Function.update_of_ne hjm, Function.update_of_ne hjm]
        exact a2 j (by omega)
    · intro j hj
      rw [b3 j (by omega), Function.update_of_ne (by omega), Function.update_of_ne (by omega)]
      exact a3 j (by omega)

theorem startPlan_split (names : List String) (n i : ℕ) (hi : i < n) (G : ℕ → List (Step K)) :
    (List.range n).flatMap G = (List.range i).flatMap G ++ (G i ++ ((List.range (n - i - 1)).flatMap
      (fun j => G (i + 1 + j)))) := by
  have h1 : n = (i + 1) + (n - i - 1) := by omega
  conv_lhs => rw [h1, List.range_add, List.range_succ]
  rw [List.flatMap_append, List.flatMap_append, List.flatMap_map]
  simp

/-- C33: no property can be added to a set of lightcones if one of them is empty: the call for a property that is not
in its lightcones ends with a `ValueError`, whatever the lightcones contain (`lcmaker.py:164-167`). -/
theorem C33_empty_fails (snaps : List (SnapMeta K)) (add : Adding K) (n : ℕ) (keys : List String) (d d' : Folder K)
    (hd : Ready snaps n d) (i : ℕ) (hi : i < n) (f : LCFile K) (hf : d i = some f) (hr : f.rows = some [])
    (hk : keys.flatMap add.names ≠ []) : exec (addPlanG snaps add n keys d) d ≠ (d', .ok ()) := by
  intro h
  obtain ⟨f', rows, full, e1, e2, e3, -⟩ := hd i hi
  rw [hf] at e1
  cases e1
  rw [hr] at e2
  cases e2
  have hrun := (exec_ok h).2 i
  obtain ⟨k, ks, hks⟩ := List.exists_cons_of_ne_nil hk
  have heffs : ∃ rest, effsOf i (addPlanG snaps add n keys d) =
      .beginExtra :: .setDone false :: .newSet k :: rest := by
    rw [addPlanG_eq, effsOf_append]
    unfold startPlan
    rw [startPlan_split keys n i hi, effsOf_append, effsOf_append]
    have h0 : effsOf i ((List.range i).flatMap fun j => [Step.eff j FEff.beginExtra, .eff j (.setDone false)] ++
        (keys.flatMap add.names).map (fun k => Step.eff (K := K) j (FEff.newSet k))) = [] := by
      rw [effsOf_flatMap, List.flatMap_eq_nil_iff]
      intro j hj
      have hne : ¬ j = i := by have := List.mem_range.1 hj; omega
      rw [effsOf_append, effsOf_cons_eff, if_neg hne, effsOf_cons_eff, if_neg hne, effsOf_map_same, if_neg hne]
      rfl
    rw [h0, hks]
    simp only [List.nil_append, List.map_cons, List.cons_append, effsOf_cons_eff, if_true]
    exact ⟨_, rfl⟩
  obtain ⟨rest, he⟩ := heffs
  rw [he, hf] at hrun
  simp only [runFile, stepFile, LCFile.step, hr, e3] at hrun
  split at hrun <;> simp_all

/-- C33: a call that names a new property twice fails, whatever the lightcones contain (`lcmaker.py:152-167`). -/
theorem C33_repeated_fails (snaps : List (SnapMeta K)) (add : Adding K) (n : ℕ) (hn : 0 < n) (keys : List String)
    (d d' : Folder K) (hd : Ready snaps n d) (hk : ¬ (keys.flatMap add.names).Nodup) :
    exec (addPlanG snaps add n keys d) d ≠ (d', .ok ()) := by
  intro h
  obtain ⟨f, rows, full, e1, e2, e3, -⟩ := hd 0 hn
  have hrun := (exec_ok h).2 0
  obtain ⟨rest, he⟩ : ∃ rest, effsOf 0 (addPlanG snaps add n keys d) =
      (.beginExtra :: .setDone false :: (keys.flatMap add.names).map FEff.newSet) ++ rest := by
    rw [addPlanG_eq, effsOf_append]
    unfold startPlan
    rw [startPlan_split keys n 0 hn, effsOf_append, effsOf_append]
    simp only [List.range_zero, List.flatMap_nil, effsOf_nil, List.nil_append, List.cons_append, effsOf_cons_eff,
      if_true, effsOf_append, effsOf_map_same, List.append_assoc]
    exact ⟨_, rfl⟩
  rw [he, e1] at hrun
  simp only [List.cons_append, runFile, stepFile, LCFile.step] at hrun
  rcases hq : runFile ((keys.flatMap add.names).map FEff.newSet)
      (some { f with extraInit := some true, extraDone := some false }) with er | g
  · have hbad : ∀ (a b : List (FEff K)) (x : Option (LCFile K)) (er : Err), runFile a x = .error er →
        ∃ er', runFile (a ++ b) x = .error er' := by
      intro a b
      induction a with
      | nil => intro x er h; simp [runFile] at h
      | cons e a ih =>
        intro x er h
        rw [List.cons_append, runFile]
        rw [runFile] at h
        rcases hs : stepFile x e with e1 | g
        · exact ⟨e1, rfl⟩
        · rw [hs] at h
          exact ih _ _ h
    obtain ⟨er', h'⟩ := hbad _ rest _ _ hq
    rw [h'] at hrun
    cases hrun
  · exact hk (runFile_newSets _ { f with extraInit := some true, extraDone := some false } _ rows full e2 e3 hq).choose_spec.2.1

/-- C34: and the failure is lost.  If the first empty lightcone is not the first of the set, then the call for new
properties ends with a `ValueError`; repeating it ends without exception and marks all lightcones as complete, but the
lightcones before the empty one have zeros as values of the new properties. -/
theorem C34_empty_lost (st : Settings K) (metas : List (SnapMeta K)) (data : ℕ → SnapData K)
    (cat : Catalogue K) (store : K → K) (known : List String) (n i : ℕ) (hi : i < n) (hi0 : 0 < i)
    (keys : List String) (d : Folder K) (hd : Ready (snapsUsed st metas) n d)
    (new : List String) (hnd : new.Nodup) (hne : new ≠ [])
    (hplan : addPlan st metas data cat store known (some n) keys d =
      addPlanG (snapsUsed st metas) (scalarAdding st data cat store) n new d)
    (hnew : ∀ k ∈ keys, k ∉ posKeys → k ∈ known ∨ k = "masscheck" →
      k ∈ new ∨ ∃ f0, d 0 = some f0 ∧ (f0.dataset k).isSome)
    (hfresh : ∀ j, j ≤ i → ∀ f, d j = some f → ∀ k ∈ new, f.dataset k = none)
    (hsome : ∀ j, j < i → ∀ f, d j = some f → f.rows ≠ some [])
    (hempty : ∀ f, d i = some f → f.rows = some []) :
    ∃ d1 d2, exec (addPlan st metas data cat store known (some n) keys d) d = (d1, .error .valueError) ∧
      exec (addPlan st metas data cat store known (some n) keys d1) d1 = (d2, .ok ()) ∧
      (∀ j, j < n → ∃ f, d2 j = some f ∧ f.extraDone = some true) ∧
      ∀ j, j < i → ∃ f rows, d2 j = some f ∧ f.rows = some rows ∧ rows ≠ [] ∧
        ∀ key ∈ new, f.dataset key = some (List.replicate rows.length 0) := by
  have hpre : ∀ j, j < i → ∃ f rows full, d j = some f ∧ f.rows = some rows ∧ rows ≠ [] ∧ f.full = some full ∧
      ∀ k ∈ new, full.get? k = none := by
    intro j hj
    obtain ⟨f, rows, full, h1, h2, h3, -⟩ := hd j (by omega)
    refine ⟨f, rows, full, h1, h2, ?_, h3, ?_⟩
    · intro e
      exact hsome j hj f h1 (by rw [h2, e])
    · intro k hk
      have := hfresh j (by omega) f h1 k hk
      unfold LCFile.dataset at this
      rw [h3] at this
      exact this
  obtain ⟨c, a1, a2, a3⟩ := exec_start new hnd d i hpre
  obtain ⟨fi, ri, fulli, g1, g2, g3, -⟩ := hd i hi
  rw [hempty fi g1] at g2
  cases g2
  obtain ⟨k0, ks, hks⟩ := List.exists_cons_of_ne_nil hne
  have hk0 : fulli.get? k0 = none := by
    have := hfresh i le_rfl fi g1 k0 (by rw [hks]; simp)
    unfold LCFile.dataset at this
    rw [g3] at this
    exact this
  have hci : c i = some fi := by rw [a3 i le_rfl, g1]
  have hnames : new.flatMap (scalarAdding st data cat store).names = new := by simp [scalarAdding]
  have hfirst : exec (addPlan st metas data cat store known (some n) keys d) d =
      (Function.update (Function.update c i (some { fi with extraInit := some true })) i
        (some { fi with extraInit := some true, extraDone := some false }), .error .valueError) := by
    rw [hplan, addPlanG_eq]
    unfold startPlan
    rw [hnames, startPlan_split new n i hi, List.append_assoc, List.append_assoc, exec_append a1, hks]
    have hr : fi.rows = some [] := hempty fi g1
    simp only [List.map_cons, List.cons_append, List.nil_append, exec, hci, stepFile, LCFile.step,
      Function.update_self, hr, g3, PyDict.has, hk0, Option.isSome_none, Bool.false_eq_true, if_false, if_true]
  generalize hd1 : (Function.update (Function.update c i (some { fi with extraInit := some true })) i
        (some { fi with extraInit := some true, extraDone := some false })) = d1 at hfirst
  have hd1j : ∀ j, j ≠ i → d1 j = c j := by
    intro j hj
    rw [← hd1, Function.update_of_ne hj, Function.update_of_ne hj]
  have hall : ∀ j, j < n → (d1 j).isSome := by
    intro j hj
    by_cases hji : j = i
    · rw [hji, ← hd1]; simp
    · rw [hd1j j hji]
      by_cases hlt : j < i
      · obtain ⟨f, _, _, _, _, _, _, h4, _⟩ := a2 j hlt
        rw [h4]; rfl
      · rw [a3 j (by omega)]
        obtain ⟨f, _, _, h1, -⟩ := hd j hj
        rw [h1]; rfl
  obtain ⟨f0, rows0, full0, full0', b1, b2, b3, b4, b5⟩ := a2 0 hi0
  have hd10 : d1 0 = _ := (hd1j 0 (by omega)).trans b4
  obtain ⟨d2, e1, e2⟩ := C34_add_again st metas data cat store known n keys d1 _ hd10 rfl (by
    intro k hk hp hkn
    change (full0'.get? k).isSome
    rw [b5 k]
    rcases hnew k hk hp hkn with hm | ⟨f0', hf0, hs⟩
    · rw [if_pos hm]; rfl
    · rw [b1] at hf0
      cases hf0
      split
      · rfl
      · unfold LCFile.dataset at hs
        rw [b3] at hs
        exact hs) hall
  refine ⟨d1, d2, hfirst, e1, ?_, ?_⟩
  · intro j hj
    obtain ⟨f, f', -, h2, -, -, h5⟩ := e2 j hj
    exact ⟨f', h2, h5⟩
  · intro j hj
    obtain ⟨f, f', h1, h2, h3, h4, -⟩ := e2 j (by omega)
    obtain ⟨q, rows, full, full', q1, q2, q3, q4, q5⟩ := a2 j hj
    rw [hd1j j (by omega), q4] at h1
    cases h1
    refine ⟨f', rows, h2, by rw [h3]; exact q2, ?_, ?_⟩
    · intro e
      exact hsome j hj q q1 (by rw [q2, e])
    · intro key hkey
      unfold LCFile.dataset
      rw [h4]
      change full'.get? key = _
      rw [q5 key, if_pos hkey]

end

/-! ## A set with an empty lightcone -/

/-- Two lightcones: the second begins at another place and contains no halo. -/
def halfEmpty : Folder ℚ × Except Err Unit :=
  exec (buildPlan (exSt 5) [exSky, { exSky with start := fun _ => 50 }] exMetas (exData 10 15) exBins) (fun _ => none)

theorem halfEmpty_ok : after halfEmpty (fun d =>
    atFile 0 d (fun f => decide (f.dataset "sfr" = none) && decide ((f.rows.map List.length) = some 2)) &&
    atFile 1 d (fun f => decide (f.basicDone = some true) && decide (f.dataset "sfr" = none) &&
      decide ((f.rows.map List.length) = some 0))) = true := by
  decide +kernel

/-- The first call fails, the second does not, the values are zeros. -/
example : (match exec ((Call.scalar ["sfr"]).plan exEnv halfEmpty.1) halfEmpty.1 with
    | (d1, .error .valueError) => after (exec ((Call.scalar ["sfr"]).plan exEnv d1) d1) (fun d =>
        atFile 0 d (fun f => decide (f.extraDone = some true) && decide (f.dataset "sfr" = some [0, 0])) &&
        atFile 1 d (fun f => decide (f.extraDone = some true) && decide (f.dataset "sfr" = none)))
    | _ => false) = true := by
  decide +kernel

/-- A property named twice. -/
example : (match exec ((Call.scalar ["sfr", "sfr"]).plan exEnv exBuild.1) exBuild.1 with
    | (_, .error .valueError) => true
    | _ => false) = true := by
  decide +kernel

/-- The hypotheses of `C34_empty_lost` hold for it. -/
example : ∃ d1 d2, exec (addPlan (exSt 5) exMetas (exData 10 15) exCat id exKnown (some 2) ["sfr"] halfEmpty.1)
      halfEmpty.1 = (d1, .error .valueError) ∧
    exec (addPlan (exSt 5) exMetas (exData 10 15) exCat id exKnown (some 2) ["sfr"] d1) d1 = (d2, .ok ()) := by
  obtain ⟨hb, hp⟩ := after_ok halfEmpty_ok
  simp only [Bool.and_eq_true] at hp
  obtain ⟨h0, h1⟩ := hp
  unfold atFile at h0 h1
  split at h0
  · rename_i f0 hf0
    split at h1
    · rename_i f1 hf1
      simp only [Bool.and_eq_true, decide_eq_true_eq] at h0 h1
      have hready : Ready (snapsUsed (exSt 5) exMetas) 2 halfEmpty.1 :=
        built_ready (exSt 5) [exSky, { exSky with start := fun _ => 50 }] exMetas (exData 10 15) exBins _ _ hb
          (by decide)
      have key : ∀ (f : LCFile ℚ), halfEmpty.1 0 = some f ∨ halfEmpty.1 1 = some f → f.dataset "sfr" = none := by
        rintro f (h | h)
        · rw [hf0] at h; cases h; exact h0.1
        · rw [hf1] at h; cases h; exact h1.1.2
      obtain ⟨d1, d2, a, b, -⟩ := C34_empty_lost (exSt 5) exMetas (exData 10 15) exCat id exKnown 2 1 (by omega)
        (by omega) ["sfr"] halfEmpty.1 hready ["sfr"] (by decide) (by decide) (by
          unfold addPlan
          obtain ⟨f, rows, full, e1, e2, e3, -⟩ := hready 0 (by omega)
          rw [e1]
          have hs : full.has "sfr" = false := by
            have := key f (Or.inl e1)
            unfold LCFile.dataset at this
            rw [e3] at this
            simp only [Option.bind_some] at this
            simp [PyDict.has, this]
          simp only [e3, List.filter_cons, hs]
          rfl)
        (by intro k hk _ _; left; exact hk)
        (by
          intro j hj f hf k hk
          simp only [List.mem_singleton] at hk
          subst hk
          interval_cases j
          · exact key f (Or.inl hf)
          · exact key f (Or.inr hf))
        (by
          intro j hj f hf e
          interval_cases j
          rw [hf0] at hf
          cases hf
          rw [e] at h0
          simp at h0)
        (by
          intro f hf
          rw [hf1] at hf
          cases hf
          have h2 := h1.2
          cases hr : f1.rows with
          | none => rw [hr] at h2; simp at h2
          | some l =>
            rw [hr] at h2
            simp only [Option.map_some, Option.some.injEq, List.length_eq_zero_iff] at h2
            rw [h2])
      exact ⟨d1, d2, a, b⟩
    · cases h1
  · cases h0

end Verif.LC
