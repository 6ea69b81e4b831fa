import Verif.Spec.InstFit
import Verif.Props.InstField
import Mathlib.Algebra.Order.Round
import Mathlib.Data.Rat.Floor
import Mathlib.Tactic.Linarith

/-!
# C132: the fields of an instrument fit it
-/

set_option linter.unusedSectionVars false

namespace Verif.Inst
open Spec
variable {F D O X G B H M P V T S Q K : Type}

/-! ### The instrument stays what it is -/

theorem sameInstrument_trans (x : Setup F D K) (s s' : State F D O X G M K) (h : SameInstrument x s)
    (e1 : s'.bestSpatial = s.bestSpatial) (e2 : s'.bestSpectral = s.bestSpectral)
    (e3 : s'.spatialUnit = s.spatialUnit) (e4 : s'.spectralUnit = s.spectralUnit)
    (e5 : s'.fluxUnit = s.fluxUnit) : SameInstrument x s' :=
  ⟨e1.trans h.1, e2.trans h.2, e3.trans h.3, e4.trans h.4, e5.trans h.5⟩

theorem setResponse_same (ph : Phys F D O X G B H M P V T S Q K) (x : Setup F D K) (s : State F D O X G M K)
    (names : List Name) (m : Mode) (fn : FnArg F) (kw : KwArg D) (h : SameInstrument x s) :
    SameInstrument x (setResponse ph s names m fn kw).1 := by
  unfold setResponse
  split
  · exact h
  · unfold newDefault newResponse setDefault
    refine sameInstrument_trans x s _ h ?_ ?_ ?_ ?_ ?_ <;>
      (repeat' split) <;> first | rfl | simp [markAll]

theorem mapLoop_same (ph : Phys F D O X G B H M P V T S Q K) (x : Setup F D K) (groups : List (List Name))
    (a : MapArgs B Q) (fs : List Name) (s : State F D O X G M K) (h : SameInstrument x s) :
    SameInstrument x (mapLoop ph groups a s fs).1 ∧ (mapLoop ph groups a s fs).1.fields = s.fields ∧
      (mapLoop ph groups a s fs).1.fieldProps = s.fieldProps := by
  induction fs generalizing s with
  | nil => exact ⟨h, rfl, rfl⟩
  | cons f rest ih =>
    simp only [mapLoop]
    split
    · exact ⟨h, rfl, rfl⟩
    split
    · exact ⟨h, rfl, rfl⟩
    exact ih _ ⟨h.1, h.2, h.3, h.4, h.5⟩

theorem dropField_same (x : Setup F D K) (s : State F D O X G M K) (f : Name) (h : SameInstrument x s) :
    SameInstrument x (dropField s f) ∧
      (∀ k g, (dropField s f).fields.get? k = some g → s.fields.get? k = some g) ∧
      (∀ k g, (dropField s f).fields.get? k = some g → (dropField s f).fieldProps.get? k = s.fieldProps.get? k) := by
  unfold dropField
  simp only
  split <;>
  · refine ⟨⟨h.1, h.2, h.3, h.4, h.5⟩, fun k g hk => ?_, fun k g hk => ?_⟩ <;>
    · simp only [PyDict.get?_erase] at hk ⊢
      split at hk
      · cases hk
      · rename_i hne
        simp [hne, hk]

/-! ### The checks -/

theorem checkAxis_ok (known : List String) (u v : Option String) :
    checkAxis known u v = .ok () ↔ SameUnit known u v := by
  unfold checkAxis SameUnit
  rcases u with _ | u
  · simp
  rcases v with _ | v
  · simp
  simp only [List.contains_eq_mem, decide_eq_true_eq]
  constructor
  · intro h x y hx hy
    simp only [Option.some.injEq] at hx hy
    subst hx hy
    split at h
    · split at h
      · rename_i h1 h2; exact ⟨h2, h1⟩
      · cases h
    · cases h
  · intro h
    obtain ⟨h1, h2⟩ := h u v rfl rfl
    rw [if_pos h2, if_pos h1]

theorem checkFlux_ok (us : List (Option String)) (v : Option String) (i : ℕ) :
    checkFlux us v i = .ok () ↔
      i < us.length ∧ SameUnit ["Jy", "mJy"] (us[i]?).join v ∧
        ((us[i]?).join = none ∨ v = none ∨ us.length = 1) := by
  unfold checkFlux
  rcases hu : us[i]? with _ | _ | u
  · have : ¬ i < us.length := by simpa using hu
    simp [this]
  · have := (List.getElem?_eq_some_iff.1 hu).1
    simp [this, SameUnit]
  · have := (List.getElem?_eq_some_iff.1 hu).1
    rcases v with _ | v
    · simp [this, SameUnit]
    simp only [this, true_and, Option.join_some, SameUnit, Option.some.injEq, reduceCtorEq, false_or]
    by_cases h1 : us.length = 1
    · by_cases h2 : u ∈ knownFlux
      · by_cases h3 : u = v
        · subst h3
          simp only [h1, beq_self_eq_true, List.contains_eq_mem, h2, decide_true, Bool.and_self, if_true,
            and_true, true_iff]
          rintro x y rfl rfl
          exact ⟨rfl, h2⟩
        · simp only [h1, List.contains_eq_mem, h2, decide_true, Bool.and_self, if_true, h3, if_false,
            and_true, reduceCtorEq, false_iff]
          exact fun h => h3 (h u v rfl rfl).1
      · simp only [h1, List.contains_eq_mem, h2, decide_false, Bool.and_false, Bool.false_eq_true, if_false,
          and_true, reduceCtorEq, false_iff]
        exact fun h => h2 (h u v rfl rfl).2
    · simp [h1]

theorem compatible_ok (x : Setup F D K) (s : State F D O X G M K) (hs : SameInstrument x s) (g : Field X G K)
    (i : ℕ) :
    compatible s g i = .ok () ↔ Suits x g ∧ i < g.gridunits.length ∧ SuitsFlux x g i ∧
      ((g.gridunits[i]?).join = none ∨ x.fluxUnit = none ∨ g.gridunits.length = 1) := by
  have e := checkFlux_ok g.gridunits s.fluxUnit i
  rw [hs.fluxUnit] at e
  have a0 := checkAxis_ok knownSpatial (g.axunits[0]?).join s.spatialUnit
  have a1 := checkAxis_ok knownSpatial (g.axunits[1]?).join s.spatialUnit
  have a2 := checkAxis_ok knownSpectral (g.axunits[2]?).join s.spectralUnit
  rw [hs.spatialUnit] at a0 a1
  rw [hs.spectralUnit] at a2
  unfold compatible
  rw [hs.fluxUnit, hs.spatialUnit, hs.spectralUnit]
  unfold SuitsFlux
  split
  · rename_i h
    simp only [reduceCtorEq, false_iff]
    rintro ⟨⟨h', -⟩, -⟩
    rw [h'] at h
    cases h
  rename_i h1
  split
  · rename_i h
    simp only [reduceCtorEq, false_iff]
    rintro ⟨⟨-, h', -⟩, -⟩
    rw [h'] at h
    cases h
  rename_i h2
  split
  · rename_i h
    simp only [reduceCtorEq, false_iff]
    rintro ⟨h', -⟩
    exact h h'.cube
  rename_i h3
  split
  · rename_i h
    simp only [reduceCtorEq, false_iff]
    rintro ⟨h', -⟩
    rw [a0.2 h'.first] at h
    cases h
  rename_i h4
  split
  · rename_i h
    simp only [reduceCtorEq, false_iff]
    rintro ⟨h', -⟩
    rw [a1.2 h'.second] at h
    cases h
  rename_i h5
  split
  · rename_i h
    simp only [reduceCtorEq, false_iff]
    rintro ⟨h', -⟩
    rw [a2.2 h'.third] at h
    cases h
  rename_i h6
  rw [e]
  constructor
  · intro h
    exact ⟨⟨by simpa using h1, by simpa using h2, by simpa using h3, a0.1 h4, a1.1 h5, a2.1 h6⟩, h⟩
  · exact fun h => h.2

theorem resolution_ok [LinearOrder K] (x : Setup F D K) (s : State F D O X G M K) (hs : SameInstrument x s)
    (g : Field X G K) : resolutionOk s g = true ↔ Sharp x.bestSpatial x.bestSpectral g := by
  unfold resolutionOk
  rw [hs.spatial, hs.spectral, Bool.and_eq_true]
  have key : ∀ (r : K) (o : Option K), (o.any (fun p => decide (r < p))) = false ↔ ∀ p, o = some p → p ≤ r := by
    intro r o
    rcases o with _ | p <;> simp
  constructor
  · rintro ⟨h1, h2⟩
    constructor
    · intro r hr i hi p hp
      rw [hr] at h1
      simp only [Bool.not_eq_true', Bool.or_eq_false_iff, key] at h1
      rcases (by omega : i = 0 ∨ i = 1) with rfl | rfl
      · exact h1.1 p hp
      · exact h1.2 p hp
    · intro r hr p hp
      rw [hr] at h2
      simp only [Bool.not_eq_true', key] at h2
      exact h2 p hp
  · rintro ⟨h1, h2⟩
    constructor
    · split
      · rfl
      · rename_i r hr
        simp only [Bool.not_eq_true', Bool.or_eq_false_iff, key]
        exact ⟨h1 r hr 0 (by omega), h1 r hr 1 (by omega)⟩
    · split
      · rfl
      · rename_i r hr
        simp only [Bool.not_eq_true', key]
        exact h2 r hr

/-! ### When a field is taken -/

/-- C132: exactly when a field is taken.  The index must be that of an axis (C42), the grid must have the units of the
instrument and be as fine, the name must be free; with checks, several properties are only possible if the chosen one
has no unit or the instrument has none; without `in_place` there may be just one. -/
theorem C132_added_iff [LinearOrder K] (x : Setup F D K) (s : State F D O X G M K) (hs : SameInstrument x s)
    (a : FieldArgs X G K) :
    (∃ n, (addField s a).2 = .ok n) ↔
      (0 ≤ a.idx.getD 0 ∧ a.idx.getD 0 < a.grid.ndim) ∧
      (a.check = true → Suits x a.grid ∧ (a.idx.getD 0).toNat < a.grid.gridunits.length ∧
        SuitsFlux x a.grid (a.idx.getD 0).toNat ∧
        ((a.grid.gridunits[(a.idx.getD 0).toNat]?).join = none ∨ x.fluxUnit = none ∨ a.grid.gridunits.length = 1)) ∧
      s.fields.has (a.name.getD (Nat.repr s.fieldCounter)) = false ∧
      Sharp x.bestSpatial x.bestSpectral a.grid ∧
      (a.inPlace = false → (a.idx.getD 0).toNat < a.grid.props.length ∧ a.grid.gridunits.length = 1) := by
  rw [← resolution_ok x s hs, ← compatible_ok x s hs]
  unfold addField
  simp only
  split
  · rename_i h
    simp only [Bool.or_eq_true, decide_eq_true_eq, gt_iff_lt] at h
    simp only [reduceCtorEq, exists_false, false_iff]
    rintro ⟨⟨h1, h2⟩, -⟩
    omega
  rename_i h1
  simp only [Bool.or_eq_true, decide_eq_true_eq, gt_iff_lt, not_or] at h1
  split
  · rename_i e h
    simp only [reduceCtorEq, exists_false, false_iff]
    rintro ⟨-, h2, -⟩
    split at h
    · rename_i hc
      rw [h2 hc] at h
      cases h
    · cases h
  rename_i h2
  split
  · rename_i h
    simp only [reduceCtorEq, exists_false, false_iff]
    rintro ⟨-, -, h', -⟩
    rw [h'] at h
    cases h
  rename_i h3
  split
  · rename_i h
    simp only [reduceCtorEq, exists_false, false_iff]
    rintro ⟨-, -, -, h', -⟩
    rw [h'] at h
    cases h
  rename_i h4
  have hst : (∃ y, storedField a.grid (a.idx.getD 0) a.inPlace = .ok y) ↔
      (a.inPlace = false → (a.idx.getD 0).toNat < a.grid.props.length ∧ a.grid.gridunits.length = 1) := by
    unfold storedField
    rcases hp : a.inPlace with _ | _
    · simp only [Bool.false_eq_true, if_false, forall_const]
      unfold copyField
      rcases hg : a.grid.props[(a.idx.getD 0).toNat]? with _ | c
      · have : ¬ (a.idx.getD 0).toNat < a.grid.props.length := by simpa using hg
        simp [this]
      · have := (List.getElem?_eq_some_iff.1 hg).1
        by_cases hl : a.grid.gridunits.length = 1 <;> simp [this, hl]
    · simp
  have hrest : (0 ≤ a.idx.getD 0 ∧ a.idx.getD 0 < a.grid.ndim) ∧
      (a.check = true → compatible s a.grid (a.idx.getD 0).toNat = .ok ()) ∧
      s.fields.has (a.name.getD (Nat.repr s.fieldCounter)) = false ∧ resolutionOk s a.grid = true := by
    refine ⟨⟨by omega, by omega⟩, fun hc => ?_, by simpa using h3, by simpa using h4⟩
    rw [if_pos hc] at h2
    exact h2
  obtain ⟨r1, r2, r3, r4⟩ := hrest
  split
  · rename_i e h
    rw [h] at hst
    simp only [reduceCtorEq, exists_false, false_iff] at hst ⊢
    exact fun h' => hst h'.2.2.2.2
  · rename_i g j h
    constructor
    · intro _
      exact ⟨r1, r2, r3, r4, hst.1 ⟨_, h⟩⟩
    · intro _
      exact ⟨_, rfl⟩

/-- C132: a field that is not taken leaves no trace. -/
theorem C132_refused [LinearOrder K] (s : State F D O X G M K) (a : FieldArgs X G K)
    (h : ¬ ∃ n, (addField s a).2 = .ok n) : (addField s a).1 = s := by
  rcases addField_cases s a with ⟨e, h'⟩ | ⟨n, g, j, h', -⟩
  · rw [h']
  · exact absurd ⟨n, by rw [h']⟩ h

/-! ### Every history -/

/-- What a history keeps: the instrument is the one that was made, and every field is as fine as it needs; with
checks the field has its units, and the property that is observed has its unit. -/
structure FitIn [LinearOrder K] (x : Setup F D K) (checked : Prop) (s : State F D O X G M K) : Prop where
  same : SameInstrument x s
  sharp : ∀ f g, s.fields.get? f = some g → Sharp x.bestSpatial x.bestSpectral g
  suits : checked → ∀ f g, s.fields.get? f = some g → Suits x g
  flux : checked → ∀ f g, s.fields.get? f = some g → ∃ j : ℕ, s.fieldProps.get? f = some (j : ℤ) ∧
    j < g.gridunits.length ∧ SuitsFlux x g j

theorem FitIn.of_same [LinearOrder K] {x : Setup F D K} {c : Prop} {s s' : State F D O X G M K} (h : FitIn x c s)
    (hs : SameInstrument x s') (e1 : s'.fields = s.fields) (e2 : s'.fieldProps = s.fieldProps) : FitIn x c s' :=
  ⟨hs, e1 ▸ h.sharp, fun k => e1 ▸ h.suits k, fun k => by rw [e1, e2]; exact h.flux k⟩

theorem storedField_parts (g : Field X G K) (i : ℤ) (p : Bool) (g' : Field X G K) (j : ℤ)
    (h : storedField g i p = .ok (g', j)) :
    g'.pixel = g.pixel ∧ g'.axunits = g.axunits ∧ g'.gridunits = g.gridunits ∧ g'.active = g.active ∧
      g'.fourier = g.fourier ∧ g'.ndim = g.ndim ∧ (j = i ∨ (j = 0 ∧ g.gridunits.length = 1)) := by
  unfold storedField at h
  split at h
  · simp only [Except.ok.injEq, Prod.mk.injEq] at h
    obtain ⟨rfl, rfl⟩ := h
    exact ⟨rfl, rfl, rfl, rfl, rfl, rfl, .inl rfl⟩
  · unfold copyField at h
    rcases hg : g.props[i.toNat]? with _ | c
    · rw [hg] at h; cases h
    rw [hg] at h
    simp only at h
    by_cases hl : g.gridunits.length = 1
    · rw [if_pos hl] at h
      simp only [Except.ok.injEq, Prod.mk.injEq] at h
      obtain ⟨rfl, rfl⟩ := h
      exact ⟨rfl, rfl, rfl, rfl, rfl, rfl, .inr ⟨rfl, hl⟩⟩
    · rw [if_neg hl] at h
      cases h

theorem addField_fitIn [LinearOrder K] (x : Setup F D K) (c : Prop) (s : State F D O X G M K) (hg : FitIn x c s)
    (a : FieldArgs X G K) (hc : c → a.check = true) : FitIn x c (addField s a).1 := by
  by_cases hn : ∃ n, (addField s a).2 = .ok n
  swap
  · rw [C132_refused s a hn]; exact hg
  obtain ⟨-, q2, -, q4, -⟩ := (C132_added_iff x s hg.same a).1 hn
  rcases addField_cases s a with ⟨e, h⟩ | ⟨n, g, j, h, -, -, p1, -, -, p4⟩
  · rw [h]; exact hg
  rw [h]
  obtain ⟨d1, d2, d3, d4, d5, d6, d7⟩ := storedField_parts _ _ _ _ _ p4
  refine ⟨⟨hg.same.1, hg.same.2, hg.same.3, hg.same.4, hg.same.5⟩, ?_, ?_, ?_⟩
  · intro f g' hf
    simp only [PyDict.get?_set] at hf
    split at hf
    · simp only [Option.some.injEq] at hf
      subst hf
      exact ⟨by rw [d1]; exact q4.1, by rw [d1]; exact q4.2⟩
    · exact hg.sharp f g' hf
  · intro k f g' hf
    simp only [PyDict.get?_set] at hf
    split at hf
    · simp only [Option.some.injEq] at hf
      subst hf
      have := (q2 (hc k)).1
      exact ⟨d4 ▸ this.1, d5 ▸ this.2, d6 ▸ this.3, by rw [d2]; exact this.4, by rw [d2]; exact this.5,
        by rw [d2]; exact this.6⟩
    · exact hg.suits k f g' hf
  · intro k f g' hf
    simp only [PyDict.get?_set] at hf ⊢
    split at hf
    · rename_i hnf
      simp only [Option.some.injEq] at hf
      subst hf
      simp only [if_pos hnf, Option.some.injEq]
      obtain ⟨-, r1, r2, -⟩ := q2 (hc k)
      rcases d7 with e | ⟨e, e'⟩
      · refine ⟨(a.idx.getD 0).toNat, ?_, d3 ▸ r1, ?_⟩
        · rw [e]; omega
        · unfold SuitsFlux; rw [d3]; exact r2
      · refine ⟨0, by simpa using e, by rw [d3]; omega, ?_⟩
        unfold SuitsFlux
        rw [d3]
        have h0 : (a.idx.getD 0).toNat = 0 := by omega
        rw [h0] at r2
        exact r2
    · rename_i hnf
      simp only [if_neg hnf]
      exact hg.flux k f g' hf

theorem step_fitIn [DecidableEq F] [DecidableEq D] [LinearOrder K] (ph : Phys F D O X G B H M P V T S Q K)
    (x : Setup F D K) (c : Prop) (s : State F D O X G M K) (op : Op F D O X G B K Q) (ho : Ordered s)
    (hg : FitIn x c s) (he : NoEdit op) (hc : c → Checked op) : FitIn x c (step ph s op) := by
  cases op with
  | setResponse names m fn kw =>
    simp only [step]
    have hs := setResponse_same ph x s names m fn kw hg.same
    rcases setResponse_cases ph s names m fn kw with ⟨h, -⟩ | ⟨-, hf, -, -⟩
    · rw [h]; exact hg
    · exact hg.of_same hs hf.fields hf.fieldProps
  | addDetector a =>
    simp only [step]
    rcases addDetector_cases ph s ho a with ⟨e, u, v, w, h, -⟩ | ⟨n, y, d, u, v, w, h, -⟩ <;>
    · rw [h]
      exact hg.of_same ⟨hg.same.1, hg.same.2, hg.same.3, hg.same.4, hg.same.5⟩ rfl rfl
  | delDetectors names =>
    simp only [step, delDetectors]
    split
    · exact hg
    split <;> exact hg.of_same ⟨hg.same.1, hg.same.2, hg.same.3, hg.same.4, hg.same.5⟩ rfl rfl
  | addField a => exact addField_fitIn x c s hg a hc
  | delFields names =>
    simp only [step, delFields]
    split
    · exact hg
    · rename_i hq
      clear hq hc he ho
      show FitIn x c (names.foldl dropField s)
      induction names generalizing s with
      | nil => exact hg
      | cons f rest ih =>
        rw [List.foldl_cons]
        refine ih (dropField s f) ?_
        obtain ⟨h1, h2, h3⟩ := dropField_same x s f hg.same
        exact ⟨h1, fun k g hk => hg.sharp k g (h2 k g hk), fun q k g hk => hg.suits q k g (h2 k g hk),
          fun q k g hk => by rw [h3 k g hk]; exact hg.flux q k g (h2 k g hk)⟩
  | mapFields names a =>
    simp only [step, mapFields]
    split
    · exact hg
    split
    · exact hg
    split
    · exact hg
    split
    · exact hg
    · obtain ⟨h1, h2, h3⟩ := mapLoop_same ph x (by assumption) a (by assumption) s hg.same
      rename_i groups hgr
      obtain ⟨h1, h2, h3⟩ := mapLoop_same ph x groups a _ s hg.same
      exact hg.of_same h1 h2 h3
  | editGrid f g => exact absurd he id

theorem run_fitIn [DecidableEq F] [DecidableEq D] [LinearOrder K] (ph : Phys F D O X G B H M P V T S Q K)
    (x : Setup F D K) (c : Prop) (ops : List (Op F D O X G B K Q)) (s : State F D O X G M K) (ho : Ordered s)
    (hg : FitIn x c s) (he : ∀ op ∈ ops, NoEdit op) (hc : c → ∀ op ∈ ops, Checked op) :
    FitIn x c (run ph s ops) := by
  induction ops generalizing s with
  | nil => exact hg
  | cons op rest ih =>
    exact ih _ (step_ordered ph s op ho) (step_fitIn ph x c s op ho hg (he op (by simp)) (fun k => hc k op (by simp)))
      (fun o h => he o (List.mem_cons_of_mem _ h)) (fun k o h => hc k o (List.mem_cons_of_mem _ h))

/-- C132: whatever a user does, as long as the grids are not changed from outside, the instrument has the resolution
and units it was made with and no field is coarser than its resolution. -/
theorem C132_sharp [DecidableEq F] [DecidableEq D] [LinearOrder K] (ph : Phys F D O X G B H M P V T S Q K)
    (x : Setup F D K) (ops : List (Op F D O X G B K Q)) (he : ∀ op ∈ ops, NoEdit op) :
    SameInstrument x (run ph (fresh x) ops) ∧
      ∀ f g, (run ph (fresh x) ops).fields.get? f = some g → Sharp x.bestSpatial x.bestSpectral g := by
  have := run_fitIn ph x False ops (fresh x) (fresh_ordered x)
    ⟨⟨rfl, rfl, rfl, rfl, rfl⟩, fun _ _ h => by simp [fresh] at h, fun k => k.elim, fun k => k.elim⟩ he
    (fun k => k.elim)
  exact ⟨this.same, this.sharp⟩

/-- C132: if fields are added with the checks on, then every field is a cube with data on the sky in the units of the
instrument, and the property chosen for it exists and has the unit of the instrument. -/
theorem C132_suits [DecidableEq F] [DecidableEq D] [LinearOrder K] (ph : Phys F D O X G B H M P V T S Q K)
    (x : Setup F D K) (ops : List (Op F D O X G B K Q)) (he : ∀ op ∈ ops, NoEdit op)
    (hc : ∀ op ∈ ops, Checked op) (f : Name) (g : Field X G K)
    (hf : (run ph (fresh x) ops).fields.get? f = some g) :
    Suits x g ∧ ∃ j : ℕ, (run ph (fresh x) ops).fieldProps.get? f = some (j : ℤ) ∧ j < g.gridunits.length ∧
      SuitsFlux x g j := by
  have := run_fitIn ph x True ops (fresh x) (fresh_ordered x)
    ⟨⟨rfl, rfl, rfl, rfl, rfl⟩, fun _ _ h => by simp [fresh] at h, fun _ _ _ h => by simp [fresh] at h,
      fun _ _ _ h => by simp [fresh] at h⟩ he (fun _ => hc)
  exact ⟨this.suits trivial f g hf, this.flux trivial f g hf⟩

/-- C132: the number of pixels that is chosen for a beam, `round(best/pixel)*10+1` (instrument.py 787), is odd and at
least 11 for every field of an instrument with a resolution; `n` is any whole number nearest to the quotient. -/
theorem C132_kernel [DecidableEq F] [DecidableEq D] (ph : Phys F D O X G B H M P V T S Q ℚ)
    (x : Setup F D ℚ) (ops : List (Op F D O X G B ℚ Q)) (he : ∀ op ∈ ops, NoEdit op) (f : Name) (g : Field X G ℚ)
    (hf : (run ph (fresh x) ops).fields.get? f = some g) (r : ℚ) (hr : x.bestSpatial = some r) (i : ℕ) (hi : i < 2)
    (p : ℚ) (hp : g.pixel[i]? = some p) (h0 : 0 < p) (n : ℤ) (hn : |(n : ℚ) - r / p| ≤ 1 / 2) :
    11 ≤ n * 10 + 1 ∧ (n * 10 + 1) % 2 = 1 := by
  have h := ((C132_sharp ph x ops he).2 f g hf).sky r hr i hi p hp
  have h1 : 1 ≤ r / p := by rw [le_div_iff₀ h0]; linarith
  have h2 : (0 : ℚ) < n := by
    have := (abs_le.1 hn).1
    linarith
  have h3 : 0 < n := by exact_mod_cast h2
  constructor <;> omega

/-! ### An example -/

/-- An instrument in degrees and GHz. -/
def fitSetup : Setup String Unit ℚ :=
  ⟨⟨none, none⟩, ⟨none, none⟩, ⟨none, none⟩, some 1, some (1 / 2), some "deg", some "GHz", some "Jy"⟩

/-- A cube with the given pixels and units. -/
def fitGrid (p : List ℚ) (u : List (Option String)) : Field Unit ℕ ℚ :=
  ⟨(), 3, [7], u, [some "Jy"], p, true, false⟩

/-- What the user does: two fields are taken, a coarse one and one in radians are not, and one is removed again. -/
def fitOps : List (Op String Unit Unit Unit ℕ Unit ℚ Unit) :=
  [.addField { grid := fitGrid [1, 1 / 3, 1 / 2] [some "deg", some "deg", some "GHz"] },
   .addField { grid := fitGrid [1, 2, 1 / 2] [some "deg", some "deg", some "GHz"] },
   .addField { grid := fitGrid [1, 1, 1] [some "deg", some "deg", some "GHz"] },
   .addField { grid := fitGrid [1, 1, 1 / 2] [some "rad", some "deg", some "GHz"] },
   .addField { grid := fitGrid [1 / 5, 1, 1 / 9] [none, some "deg", none], name := some "sky", inPlace := false },
   .delFields ["0"]]

example : (∀ op ∈ fitOps, NoEdit op) ∧ (∀ op ∈ fitOps, Checked op) := by
  constructor <;> simp [fitOps, NoEdit, Checked]

/-- Computations of any kind. -/
def fitPh : Phys String Unit Unit Unit ℕ Unit Unit ℕ Unit ℕ Unit Unit Unit ℚ where
  emptyKw := ()
  noOffset := ()
  beam := fun _ _ _ _ _ _ => .ok ()
  conv := fun _ _ _ _ => .ok ()
  collapse := fun _ _ _ _ => .ok 0
  sample := fun _ _ ps => .ok (ps.map fun _ => 0)
  shift := fun p _ => p
  noise := fun _ _ n _ _ => .ok (List.replicate n 0)
  zero := 0
  add := (· + ·)

/-- The fields before the last step, and after. -/
example : (run fitPh (fresh fitSetup) fitOps.dropLast).fieldNames = ["0", "sky"] ∧
    (run fitPh (fresh fitSetup) fitOps).fieldNames = ["sky"] := by
  constructor <;> decide +kernel

end Verif.Inst
