import Verif.Model.LCSet
import Verif.Props.LCAdd

/-!
# C34, C35, C69: interrupted work on lightcones, names in use, and lists of lightcones
-/

set_option linter.unusedSectionVars false

namespace Verif.LC

open Verif.Sim (Err SnapMeta)
open Matrix

variable {K : Type} [Field K] [LinearOrder K] [IsStrictOrderedRing K] [FloorRing K]

/-! ## Building -/

theorem buildPlan_eq (st : Settings K) (skies : List (Sky K)) (metas : List (SnapMeta K))
    (data : ℕ → SnapData K) (bins : List K) :
    buildPlan st skies metas data bins =
      initPlan skies bins ++ fillPlan st skies data (snapsUsed st metas) ++ finishPlan skies := rfl

theorem effsOf_initPlan (skies : List (Sky K)) (bins : List K) (i : ℕ) (sky : Sky K)
    (hi : skies[i]? = some sky) :
    effsOf i (initPlan skies bins) = [.truncate sky.losM sky.paM, .init bins] := by
  unfold initPlan
  rw [effsOf_skies skies i sky hi]
  · rw [effsOf_cons_eff, if_pos rfl, effsOf_cons_eff, if_pos rfl]
    rfl
  · intro q hq
    rw [effsOf_cons_eff, if_neg hq, effsOf_cons_eff, if_neg hq]
    rfl

theorem effsOf_finishPlan (skies : List (Sky K)) (i : ℕ) (sky : Sky K)
    (hi : skies[i]? = some sky) :
    effsOf i (finishPlan skies) = [.makeFull, .setBasic] := by
  unfold finishPlan
  rw [effsOf_skies skies i sky hi]
  · rw [effsOf_cons_eff, if_pos rfl, effsOf_cons_eff, if_pos rfl]
    rfl
  · intro q hq
    rw [effsOf_cons_eff, if_neg hq, effsOf_cons_eff, if_neg hq]
    rfl

/-- The second part only adds objects. -/
theorem effsOf_fillPlan (st : Settings K) (skies : List (Sky K)) (data : ℕ → SnapData K)
    (snaps : List (SnapMeta K)) (i : ℕ) :
    ∀ e ∈ effsOf i (fillPlan st skies data snaps), ∃ rows, e = FEff.append rows := by
  intro e he
  unfold effsOf at he
  rw [List.mem_filterMap] at he
  obtain ⟨s, hs, hse⟩ := he
  unfold fillPlan at hs
  obtain ⟨m, -, hs⟩ := List.mem_flatMap.1 hs
  rcases hl : loaded st (data m.index) with er | halos
  · rw [hl] at hs
    simp only [List.mem_singleton] at hs
    subst hs
    cases hse
  · rw [hl] at hs
    simp only at hs
    obtain ⟨q, -, hs⟩ := List.mem_flatMap.1 hs
    rcases hq : snapSlices st q.1 m halos with er | slices
    · rw [hq] at hs
      simp only [List.mem_singleton] at hs
      subst hs
      cases hse
    · rw [hq] at hs
      simp only at hs
      obtain ⟨rows, -, rfl⟩ := List.mem_map.1 hs
      simp only at hse
      split at hse
      · exact ⟨rows, (Option.some.inj hse).symm⟩
      · cases hse

theorem effsOf_buildPlan_none (st : Settings K) (skies : List (Sky K)) (metas : List (SnapMeta K))
    (data : ℕ → SnapData K) (bins : List K) (i : ℕ) (hi : skies.length ≤ i) :
    effsOf i (buildPlan st skies metas data bins) = [] := by
  rw [buildPlan_eq, effsOf_append, effsOf_append]
  have h1 : effsOf i (initPlan skies bins) = [] := by
    unfold initPlan
    apply effsOf_skies_none skies i hi
    intro q hq
    rw [effsOf_cons_eff, if_neg hq, effsOf_cons_eff, if_neg hq]
    rfl
  have h2 : effsOf i (finishPlan skies) = [] := by
    unfold finishPlan
    apply effsOf_skies_none skies i hi
    intro q hq
    rw [effsOf_cons_eff, if_neg hq, effsOf_cons_eff, if_neg hq]
    rfl
  have h3 : effsOf i (fillPlan st skies data (snapsUsed st metas)) = [] := by
    unfold fillPlan
    rw [effsOf_flatMap, List.flatMap_eq_nil_iff]
    intro s _
    rcases loaded st (data s.index) with e | halos
    · rfl
    · simp only
      apply effsOf_skies_none skies i hi
      intro q hq
      rcases snapSlices st q.1 s halos with e | sl
      · rfl
      · simp only
        rw [effsOf_map_same, if_neg hq]
  rw [h1, h2, h3]
  rfl

/-- A file holds the complete lightcone. -/
structure Complete (st : Settings K) (sky : Sky K) (metas : List (SnapMeta K))
    (data : ℕ → SnapData K) (bins : List K) (f : LCFile K) : Prop where
  content : ∃ c, buildCone st sky metas data bins = .ok c ∧ f.rows = some c.rows ∧
    f.tab = c.tab ∧ f.full = some (basicData c.rows)
  losM : f.losM = sky.losM
  paM : f.paM = sky.paM

/-- While objects are added, the lightcone cannot be opened and is not marked as complete. -/
theorem run_unfinished (es : List (FEff K)) (f : LCFile K) (g : Option (LCFile K))
    (he : ∀ e ∈ es, (∃ rows, e = FEff.append rows) ∨ ∃ bins, e = FEff.init bins)
    (hf : f.full = none ∧ f.basicDone ≠ some true) (h : runFile es (some f) = .ok g) :
    ∃ f', g = some f' ∧ f'.full = none ∧ f'.basicDone ≠ some true := by
  induction es generalizing f with
  | nil =>
    simp only [runFile, Except.ok.injEq] at h
    exact ⟨f, h.symm, hf⟩
  | cons e es ih =>
    rw [runFile] at h
    rcases he e (by simp) with ⟨rows, rfl⟩ | ⟨bins, rfl⟩
    · simp only [stepFile, LCFile.step] at h
      refine ih _ (fun e he' => he e (by simp [he'])) ?_ h
      exact hf
    · simp only [stepFile, LCFile.step] at h
      refine ih _ (fun e he' => he e (by simp [he'])) ?_ h
      exact ⟨hf.1, by simp⟩

theorem run_fill (st : Settings K) (skies : List (Sky K)) (metas : List (SnapMeta K))
    (data : ℕ → SnapData K) (bins : List K) (i : ℕ) (sky : Sky K) (hi : skies[i]? = some sky)
    (hnf : NoFail (fillPlan st skies data (snapsUsed st metas))) (o g : Option (LCFile K))
    (h : runFile (effsOf i (initPlan skies bins ++
      fillPlan st skies data (snapsUsed st metas))) o = .ok g) :
    ∃ c f, buildCone st sky metas data bins = .ok c ∧ g = some f ∧
      (f.rows = none ∨ f.rows = some c.rows) ∧ f.tab = c.tab ∧ f.full = none ∧
      f.basicDone = some false ∧ f.losM = sky.losM ∧ f.paM = sky.paM := by
  obtain ⟨l, h1, h2⟩ := fillPlan_cone st skies data i sky hi (snapsUsed st metas)
    ⟨[], bins.map (fun z => (z, 0))⟩ hnf
  rw [effsOf_append, effsOf_initPlan skies bins i sky hi, h1] at h
  obtain ⟨m, h3, h4⟩ := (runFile_append _ _ _ _).1 h
  have h3' : m = some ⟨sky.losM, sky.paM, none, bins.map (fun z => (z, 0)), none, some false,
      some false, some false⟩ := by
    rcases o with - | f <;> simpa [runFile, stepFile, LCFile.step] using h3.symm
  subst h3'
  rw [runFile_appends] at h4
  simp only [Except.ok.injEq] at h4
  refine ⟨_, _, h2, h4.symm, ?_, rfl, rfl, rfl, rfl, rfl⟩
  by_cases hl : l = []
  · left
    simp [hl]
  · right
    simp [hl]

/-- **C34, building.** If building is interrupted after any number of steps (or by an exception),
each lightcone is as before, or it is the new one and then: if it can be opened or is marked as
complete, it holds all objects of the finished lightcone. -/
theorem C34_build (st : Settings K) (skies : List (Sky K)) (metas : List (SnapMeta K))
    (data : ℕ → SnapData K) (bins : List K) (d : Folder K) (k i : ℕ) (sky : Sky K)
    (hi : skies[i]? = some sky) :
    (exec ((buildPlan st skies metas data bins).take k) d).1 i = d i ∨
    ∃ f, (exec ((buildPlan st skies metas data bins).take k) d).1 i = some f ∧
      (f.full.isSome ∨ f.basicDone = some true → Complete st sky metas data bins f) := by
  obtain ⟨p1, hp, hnf, hrun⟩ := crash_file (buildPlan st skies metas data bins) d k
  have h := hrun i
  generalize (exec ((buildPlan st skies metas data bins).take k) d).1 i = g at h ⊢
  rw [buildPlan_eq] at hp
  rcases prefix_append_cases hp with hp | ⟨C, hC, rfl⟩
  · have hpre := effsOf_prefix hp i
    rw [effsOf_append, effsOf_initPlan skies bins i sky hi] at hpre
    rcases he : effsOf i p1 with - | ⟨e, es⟩
    · rw [he] at h
      simp only [runFile, Except.ok.injEq] at h
      exact Or.inl h.symm
    · right
      rw [he] at hpre h
      rw [List.cons_append, List.cons_prefix_cons] at hpre
      obtain ⟨rfl, hpre⟩ := hpre
      have hes : ∀ e ∈ es, (∃ rows, e = FEff.append rows) ∨ ∃ bins, e = FEff.init bins := by
        intro e' he'
        have hm := hpre.subset he'
        rw [List.cons_append, List.nil_append] at hm
        rcases List.mem_cons.1 hm with rfl | hm
        · exact Or.inr ⟨bins, rfl⟩
        · exact Or.inl (effsOf_fillPlan st skies data _ i e' hm)
      rw [runFile] at h
      have hst : stepFile (d i) (.truncate sky.losM sky.paM) =
          .ok ⟨sky.losM, sky.paM, none, [], none, none, none, none⟩ := by
        rcases d i with - | f <;> rfl
      rw [hst] at h
      simp only at h
      obtain ⟨f', rfl, hf1, hf2⟩ := run_unfinished es _ g hes ⟨rfl, by simp⟩ h
      refine ⟨f', rfl, ?_⟩
      rintro (hx | hx)
      · rw [hf1] at hx; cases hx
      · exact absurd hx hf2
  · right
    obtain ⟨hnf1, -⟩ := NoFail.append.1 hnf
    obtain ⟨-, hnf2⟩ := NoFail.append.1 hnf1
    rw [effsOf_append] at h
    obtain ⟨m, h1, h2⟩ := (runFile_append _ _ _ _).1 h
    obtain ⟨c, f, hc, rfl, hr, htab, hfull, hb, hl, hpa⟩ :=
      run_fill st skies metas data bins i sky hi hnf2 _ _ h1
    have hCi := effsOf_prefix hC i
    rw [effsOf_finishPlan skies i sky hi] at hCi
    have hcases : effsOf i C = [] ∨ effsOf i C = [.makeFull] ∨
        effsOf i C = [.makeFull, .setBasic] := by
      rcases hz : effsOf i C with - | ⟨e1, - | ⟨e2, es⟩⟩
      · exact Or.inl rfl
      · rw [hz] at hCi
        simp only [List.cons_prefix_cons] at hCi
        obtain ⟨rfl, -⟩ := hCi
        exact Or.inr (Or.inl rfl)
      · rw [hz] at hCi
        simp only [List.cons_prefix_cons, List.prefix_nil] at hCi
        obtain ⟨rfl, rfl, rfl⟩ := hCi
        exact Or.inr (Or.inr rfl)
    rcases hcases with hz | hz | hz
    · rw [hz] at h2
      simp only [runFile, Except.ok.injEq] at h2
      subst h2
      refine ⟨f, rfl, ?_⟩
      rintro (hx | hx)
      · rw [hfull] at hx; cases hx
      · rw [hb] at hx; cases hx
    · rw [hz] at h2
      simp only [runFile, stepFile, LCFile.step, hfull] at h2
      rcases hr with hr | hr
      · rw [hr] at h2; cases h2
      · rw [hr] at h2
        simp only [Except.ok.injEq] at h2
        refine ⟨_, h2.symm, fun _ => ⟨⟨c, hc, rfl, htab, rfl⟩, hl, hpa⟩⟩
    · rw [hz] at h2
      simp only [runFile, stepFile, LCFile.step, hfull] at h2
      rcases hr with hr | hr
      · rw [hr] at h2; cases h2
      · rw [hr] at h2
        simp only [Except.ok.injEq] at h2
        refine ⟨_, h2.symm, fun _ => ⟨⟨c, hc, rfl, htab, rfl⟩, hl, hpa⟩⟩

/-- **C34, building again.** Whatever files are there, for example those of an interrupted
call, a call of `build_lightcones` that ends without exception makes all lightcones complete and
marks them so. -/
theorem C34_build_again (st : Settings K) (skies : List (Sky K)) (metas : List (SnapMeta K))
    (data : ℕ → SnapData K) (bins : List K) (d d' : Folder K)
    (h : exec (buildPlan st skies metas data bins) d = (d', .ok ())) (i : ℕ) (sky : Sky K)
    (hi : skies[i]? = some sky) :
    ∃ f, d' i = some f ∧ f.basicDone = some true ∧ f.extraInit = some false ∧
      f.extraDone = some false ∧ Complete st sky metas data bins f := by
  obtain ⟨hnf, hrun⟩ := exec_ok h
  have h1 := hrun i
  rw [buildPlan_eq] at hnf h1
  obtain ⟨hnf1, -⟩ := NoFail.append.1 hnf
  obtain ⟨-, hnf2⟩ := NoFail.append.1 hnf1
  obtain ⟨l, g1, g2⟩ := fillPlan_cone st skies data i sky hi (snapsUsed st metas)
    ⟨[], bins.map (fun z => (z, 0))⟩ hnf2
  rw [effsOf_append, effsOf_append, effsOf_initPlan skies bins i sky hi, g1,
    effsOf_finishPlan skies i sky hi] at h1
  obtain ⟨m2, h2, h3⟩ := (runFile_append _ _ _ _).1 h1
  obtain ⟨m1, h4, h5⟩ := (runFile_append _ _ _ _).1 h2
  have h4' : m1 = some ⟨sky.losM, sky.paM, none, bins.map (fun z => (z, 0)), none, some false,
      some false, some false⟩ := by
    generalize d i = o at h4
    rcases o with - | f <;> simpa [runFile, stepFile, LCFile.step] using h4.symm
  subst h4'
  rw [runFile_appends] at h5
  simp only [Except.ok.injEq] at h5
  subst h5
  simp only [runFile, stepFile, LCFile.step] at h3
  by_cases hl : l = []
  · rw [if_pos hl] at h3
    cases h3
  · rw [if_neg hl] at h3
    simp only [Except.ok.injEq] at h3
    refine ⟨_, h3.symm, rfl, rfl, rfl, ⟨⟨_, g2, ?_, rfl, ?_⟩, rfl, rfl⟩⟩
    · simp
    · simp

/-- Building makes lightcones to which properties can be added. -/
theorem built_ready (st : Settings K) (skies : List (Sky K)) (metas : List (SnapMeta K))
    (data : ℕ → SnapData K) (bins : List K) (d d' : Folder K)
    (h : exec (buildPlan st skies metas data bins) d = (d', .ok ()))
    (hnd : (metas.map (·.index)).Nodup) :
    Ready (snapsUsed st metas) skies.length d' := by
  intro i hi
  obtain ⟨f, hf, -, -, -, ⟨⟨c, hc, hr, -, hfull⟩, -, -⟩⟩ := C34_build_again st skies metas data bins
    d d' h i skies[i] (List.getElem?_eq_getElem hi)
  exact ⟨f, c.rows, _, hf, hr, hfull, built_blocked st skies[i] metas data bins c hc hnd⟩

/-- **C33 from building to the end of the session.** Lightcones are built, properties are added
in any calls (`before`), then `key` is added, then any other calls follow (`after`), all without
exception: then every object of every lightcone has the value of `key` of its source halo. -/
theorem C33_session (e : Env K) (skies : List (Sky K)) (bins : List K) (hn : e.n = skies.length)
    (hnd : (e.metas.map (·.index)).Nodup) (before after : List Call) (keys : List String)
    (d d0 d1 d2 : Folder K)
    (hbuild : exec (buildPlan e.st skies e.metas e.data bins) d = (d0, .ok ()))
    (h1 : session e before d0 = (d1, .ok ()))
    (h2 : session e (.scalar keys :: after) d1 = (d2, .ok ()))
    (key : String) (hkey : key ∈ keys) (hpos : key ∉ posKeys)
    (hknown : key ∈ e.known ∨ key = "masscheck")
    (hnew : ∀ f0, d1 0 = some f0 → f0.dataset key = none) (i : ℕ) (sky : Sky K)
    (hi : skies[i]? = some sky) :
    ∃ c f l, buildCone e.st sky e.metas e.data bins = .ok c ∧ d2 i = some f ∧
      f.rows = some c.rows ∧ f.dataset key = some l ∧
      List.Forall₂ (ScalarRight e.data e.cat e.store key) c.rows l := by
  obtain ⟨hlt, -⟩ := List.getElem?_eq_some_iff.1 hi
  have hr0 := built_ready e.st skies e.metas e.data bins d d0 hbuild hnd
  obtain ⟨g, hg, -, -, -, ⟨⟨c, hc, hgr, -, -⟩, -, -⟩⟩ := C34_build_again e.st skies e.metas e.data
    bins d d0 hbuild i sky hi
  rw [← hn] at hr0 hlt
  obtain ⟨k1, hr1⟩ := C33_kept e before d0 d1 h1 hr0
  unfold session at h2
  rcases hx : exec ((Call.scalar keys).plan e d1) d1 with ⟨dm, er | u⟩
  · rw [hx] at h2; simp at h2
  rw [hx] at h2
  simp only at h2
  obtain ⟨-, hrm⟩ := call_keeps e _ d1 dm hx hr1
  obtain ⟨k3, -⟩ := C33_kept e after dm d2 h2 hrm
  obtain ⟨f, f', rows, l, a1, a2, a3, a4, a5, a6⟩ := C33_scalar e.st e.metas e.data e.cat e.store
    e.known e.n keys d1 dm hr1 hx key hkey hpos hknown hnew i hlt
  obtain ⟨g1, b1, b2, -⟩ := k1 i hlt g hg
  rw [a1] at b1
  cases b1
  have : rows = c.rows := by
    rw [a3, hgr] at b2
    exact Option.some.inj b2
  subst this
  obtain ⟨f'', c1, c2, -, -, -, c6⟩ := k3 i hlt f' a2
  exact ⟨c, f'', l, hc, c1, c2.trans a4, c6 key l a5, a6⟩

/-! ## Adding properties -/

/-- Effects that do not touch the flag `status_extra_completed`. -/
def Quiet (e : FEff K) : Prop :=
  (∃ k, e = .newSet k) ∨ (∃ w, e = toWrite w) ∨ e = .beginExtra

theorem run_quiet (es : List (FEff K)) (hq : ∀ e ∈ es, Quiet e) (f : LCFile K)
    (g : Option (LCFile K)) (h : runFile es (some f) = .ok g) :
    ∃ f', g = some f' ∧ f'.extraDone = f.extraDone := by
  induction es generalizing f with
  | nil =>
    simp only [runFile, Except.ok.injEq] at h
    exact ⟨f, h.symm, rfl⟩
  | cons e es ih =>
    rw [runFile] at h
    rcases hs : stepFile (some f) e with er | f1
    · rw [hs] at h; cases h
    · rw [hs] at h
      simp only at h
      obtain ⟨f', h1, h2⟩ := ih (fun e he => hq e (by simp [he])) f1 h
      refine ⟨f', h1, h2.trans ?_⟩
      rcases hq e (by simp) with ⟨k, rfl⟩ | ⟨w, rfl⟩ | rfl
      · simp only [stepFile, LCFile.step] at hs
        split at hs
        · split at hs
          · cases hs
          · split at hs
            · cases hs
            · simp only [Except.ok.injEq] at hs
              rw [← hs]
        · cases hs
      · simp only [stepFile, LCFile.step, toWrite] at hs
        split at hs
        · cases hs
        · split at hs
          · cases hs
          · simp only [Except.ok.injEq] at hs
            rw [← hs]
      · simp only [stepFile, LCFile.step, Except.ok.injEq] at hs
        rw [← hs]

/-- **C34, adding properties.** If adding properties is interrupted after any number of steps (or
by an exception), then a lightcone marked as complete has the same data as before, or all the new
properties with the right values. -/
theorem C34_add (snaps : List (SnapMeta K)) (add : Adding K) (n : ℕ) (keys : List String)
    (d : Folder K) (hd : Ready snaps n d) (P : LCFile K → String → Row K → K → Prop)
    (hP : ∀ f, Fills add f (P f)) (k i : ℕ) (hi : i < n) (f f' : LCFile K) (hf : d i = some f)
    (h : (exec ((addPlanG snaps add n keys d).take k) d).1 i = some f')
    (hdone : f'.extraDone = some true) :
    (f'.rows = f.rows ∧ f'.full = f.full ∧ f.extraDone = some true) ∨
    ∃ rows, f.rows = some rows ∧ f'.rows = some rows ∧
      (∀ name ∈ keys.flatMap add.names, ∃ l, f'.dataset name = some l ∧
        List.Forall₂ (P f name) rows l) ∧
      ∀ name, name ∉ keys.flatMap add.names → f'.dataset name = f.dataset name := by
  obtain ⟨p1, hp, hnf, hrun⟩ := crash_file (addPlanG snaps add n keys d) d k
  have h1 := hrun i
  rw [h] at h1
  obtain ⟨f1, rows, full, hf1, hr, hfull, hb⟩ := hd i hi
  rw [hf] at hf1
  cases hf1
  have hpre := effsOf_prefix hp i
  rw [effsOf_addPlanG snaps add n keys d i hi f rows hf hr] at hpre
  rw [hf] at h1
  rw [addPlanG_eq] at hp
  rcases prefix_append_cases hp with hp | ⟨C, hC, rfl⟩
  · left
    -- before the last part
    have hpre := effsOf_prefix hp i
    rw [effsOf_append, effsOf_startPlan add n keys i hi,
      effsOf_writePlan snaps add n keys d i hi f rows hf hr] at hpre
    rcases he : effsOf i p1 with - | ⟨e1, - | ⟨e2, es⟩⟩
    · rw [he] at h1
      simp only [runFile, Except.ok.injEq, Option.some.injEq] at h1
      subst h1
      exact ⟨rfl, rfl, hdone⟩
    · rw [he] at hpre h1
      simp only [List.cons_append, List.cons_prefix_cons] at hpre
      obtain ⟨rfl, -⟩ := hpre
      simp only [runFile, stepFile, LCFile.step, Except.ok.injEq, Option.some.injEq] at h1
      subst h1
      exact ⟨rfl, rfl, hdone⟩
    · exfalso
      rw [he] at hpre h1
      simp only [List.cons_append, List.cons_prefix_cons] at hpre
      obtain ⟨rfl, rfl, hpre⟩ := hpre
      simp only [runFile, stepFile, LCFile.step] at h1
      have hq : ∀ e ∈ es, Quiet e := by
        intro e hem
        rcases List.mem_append.1 (hpre.subset hem) with hm | hm
        · obtain ⟨k, -, rfl⟩ := List.mem_map.1 hm
          exact Or.inl ⟨k, rfl⟩
        · obtain ⟨w, -, rfl⟩ := List.mem_map.1 hm
          exact Or.inr (Or.inl ⟨w, rfl⟩)
      obtain ⟨f2, h2, h3⟩ := run_quiet es hq _ _ h1
      cases h2
      rw [hdone] at h3
      cases h3
  · obtain ⟨hnf1, -⟩ := NoFail.append.1 hnf
    obtain ⟨-, hnf2⟩ := NoFail.append.1 hnf1
    have hCi := effsOf_prefix hC i
    rw [effsOf_endPlan n i hi] at hCi
    rw [effsOf_append, effsOf_append, effsOf_startPlan add n keys i hi,
      effsOf_writePlan snaps add n keys d i hi f rows hf hr] at h1
    have hcases : (∀ e ∈ effsOf i C, e = .beginExtra) ∨
        effsOf i C = [.beginExtra, .setDone true] := by
      rcases hz : effsOf i C with - | ⟨e1, - | ⟨e2, es⟩⟩
      · left; simp
      · rw [hz] at hCi
        simp only [List.cons_prefix_cons] at hCi
        obtain ⟨rfl, -⟩ := hCi
        left; simp
      · rw [hz] at hCi
        simp only [List.cons_prefix_cons, List.prefix_nil] at hCi
        obtain ⟨rfl, rfl, rfl⟩ := hCi
        right; rfl
    rcases hcases with hz | hz
    · exfalso
      rw [List.cons_append, List.cons_append, List.cons_append, List.cons_append] at h1
      simp only [runFile, stepFile, LCFile.step] at h1
      obtain ⟨f2, h2, h3⟩ := run_quiet _ (by
        intro e hem
        rcases List.mem_append.1 hem with hm | hm
        · rcases List.mem_append.1 hm with hm | hm
          · obtain ⟨k, -, rfl⟩ := List.mem_map.1 hm
            exact Or.inl ⟨k, rfl⟩
          · obtain ⟨w, -, rfl⟩ := List.mem_map.1 hm
            exact Or.inr (Or.inl ⟨w, rfl⟩)
        · exact Or.inr (Or.inr (hz e hm))) _ _ h1
      cases h2
      rw [hdone] at h3
      cases h3
    · right
      rw [hz] at h1
      obtain ⟨full', g1, g2, g3⟩ := add_file_ok snaps add keys f (some f') rows full hr hfull
        (fun s hs key hkey => fill_ok snaps add n keys d i hi f rows hf hr hnf2 s hs key hkey) h1 hb
        (P f) (hP f)
      cases g1
      refine ⟨rows, hr, hr, ?_, ?_⟩
      · intro name hname
        exact (g2 name hname).2
      · intro name hname
        unfold LCFile.dataset
        rw [hfull]
        exact g3 name hname

theorem exec_append {p q : List (Step K)} {x y : Folder K} (h : exec p x = (y, .ok ())) :
    exec (p ++ q) x = exec q y := by
  induction p generalizing x with
  | nil =>
    simp only [exec, Prod.mk.injEq, and_true] at h
    subst h
    rfl
  | cons s p ih =>
    cases s with
    | fail e => simp [exec] at h
    | eff j e =>
      rw [List.cons_append, exec]
      rw [exec] at h
      rcases hs : stepFile (x j) e with er | f
      · rw [hs] at h; simp at h
      · rw [hs] at h
        exact ih h

/-- **C34, adding again (fails).** If the first lightcone already has all the requested properties,
for example because a call was interrupted after creating them, then `add_properties` writes
nothing, but marks all lightcones as complete. -/
theorem C34_add_again (st : Settings K) (metas : List (SnapMeta K)) (data : ℕ → SnapData K)
    (cat : Catalogue K) (store : K → K) (known : List String) (n : ℕ) (keys : List String)
    (d : Folder K) (f0 : LCFile K) (h0 : d 0 = some f0) (hfull : f0.full.isSome)
    (hall : ∀ k ∈ keys, k ∉ posKeys → k ∈ known ∨ k = "masscheck" → (f0.dataset k).isSome) (hd : ∀ i, i < n → (d i).isSome) :
    ∃ d', exec (addPlan st metas data cat store known (some n) keys d) d = (d', .ok ()) ∧
      ∀ i, i < n → ∃ f f', d i = some f ∧ d' i = some f' ∧ f'.rows = f.rows ∧ f'.full = f.full ∧
        f'.extraDone = some true := by
  obtain ⟨full, hfu⟩ := Option.isSome_iff_exists.1 hfull
  have hplan : addPlan st metas data cat store known (some n) keys d =
      addPlanG (snapsUsed st metas) (scalarAdding st data cat store) n [] d := by
    unfold addPlan
    rw [h0]
    simp only [hfu]
    have : keys.filter (fun k => decide (k ∉ posKeys) && !full.has k &&
        (decide (k ∈ known) || k == "masscheck")) = [] := by
      rw [List.filter_eq_nil_iff]
      intro k hk hc
      simp only [Bool.and_eq_true, Bool.or_eq_true, decide_eq_true_eq, beq_iff_eq,
        Bool.not_eq_true'] at hc
      have h1 := hall k hk hc.1.1 hc.2
      unfold LCFile.dataset at h1
      rw [hfu] at h1
      have h2 : full.has k = true := h1
      rw [h2] at hc
      cases hc.1.2
    rw [this]
    rfl
  have hw : writePlan (snapsUsed st metas) (scalarAdding st data cat store) n [] d = [] := by
    unfold writePlan
    simp
  have hgen : ∀ (b : Bool) (m : ℕ) (c : Folder K), (∀ i, i < n → (c i).isSome) → m ≤ n →
      ∃ c', exec ((List.range m).flatMap (fun i => [Step.eff i FEff.beginExtra,
        .eff i (.setDone b)])) c = (c', .ok ()) ∧
        (∀ i, i < m → ∃ f, c i = some f ∧
          c' i = some { f with extraInit := some true, extraDone := some b }) ∧
        (∀ i, m ≤ i → c' i = c i) := by
    intro b m
    induction m with
    | zero => intro c _ _; exact ⟨c, rfl, by intro i hi; omega, fun i _ => rfl⟩
    | succ m ih =>
      intro c hc hm
      obtain ⟨c1, g1, g2, g3⟩ := ih c hc (by omega)
      rw [List.range_succ, List.flatMap_append, exec_append g1]
      obtain ⟨f, hfm⟩ := Option.isSome_iff_exists.1 (hc m (by omega))
      have hcm : c1 m = some f := by rw [g3 m le_rfl, hfm]
      refine ⟨Function.update c1 m (some { f with extraInit := some true, extraDone := some b }),
        ?_, ?_, ?_⟩
      · simp [exec, stepFile, LCFile.step, hcm]
      · intro i hi
        by_cases him : i = m
        · subst him
          exact ⟨f, hfm, by simp⟩
        · obtain ⟨f', g4, g5⟩ := g2 i (by omega)
          exact ⟨f', g4, by rw [Function.update_of_ne him]; exact g5⟩
      · intro i hi
        rw [Function.update_of_ne (by omega)]
        exact g3 i (by omega)
  obtain ⟨d1, a1, a2, a3⟩ := hgen false n d hd le_rfl
  obtain ⟨d2, b1, b2, b3⟩ := hgen true n d1 (by
    intro i hi
    obtain ⟨f, -, hf⟩ := a2 i hi
    rw [hf]; rfl) le_rfl
  refine ⟨d2, ?_, ?_⟩
  · rw [hplan, addPlanG_eq, hw, List.append_nil]
    have hs : startPlan (scalarAdding st data cat store) n [] = (List.range n).flatMap (fun i =>
        [Step.eff i FEff.beginExtra, .eff i (.setDone false)]) := by
      unfold startPlan
      simp
    rw [hs]
    rw [exec_append a1]
    exact b1
  · intro i hi
    obtain ⟨f, hf, hf1⟩ := a2 i hi
    obtain ⟨f1, hf1', hf2⟩ := b2 i hi
    rw [hf1] at hf1'
    cases hf1'
    exact ⟨f, _, hf, hf2, rfl, rfl, rfl⟩

/-- **C34, every interrupted call can be lost.** If `add_properties` is interrupted when it has just
created the new datasets of the first lightcone, then calling it again without interruption
ends without exception and marks the lightcone as complete, but all values of the new properties in
it are zero. -/
theorem C34_lost (st : Settings K) (metas : List (SnapMeta K)) (data : ℕ → SnapData K)
    (cat : Catalogue K) (store : K → K) (known : List String) (n : ℕ) (hn : 0 < n)
    (keys : List String) (d d1 : Folder K) (hd : Ready (snapsUsed st metas) n d)
    (new : List String)
    (hplan : addPlan st metas data cat store known (some n) keys d =
      addPlanG (snapsUsed st metas) (scalarAdding st data cat store) n new d)
    (hnew : ∀ k ∈ keys, k ∉ posKeys → k ∈ known ∨ k = "masscheck" →
      k ∈ new ∨ ∃ f0, d 0 = some f0 ∧ (f0.dataset k).isSome)
    (h : exec ((addPlan st metas data cat store known (some n) keys d).take (2 + new.length)) d =
      (d1, .ok ())) :
    ∃ d2 f rows, exec (addPlan st metas data cat store known (some n) keys d1) d1 = (d2, .ok ()) ∧
      d2 0 = some f ∧ f.rows = some rows ∧ f.extraDone = some true ∧
      ∀ key ∈ new, f.dataset key = some (List.replicate rows.length 0) := by
  have htake : (addPlan st metas data cat store known (some n) keys d).take (2 + new.length) =
      [Step.eff 0 FEff.beginExtra, .eff 0 (.setDone false)] ++
        new.map (fun k => Step.eff 0 (FEff.newSet k)) := by
    rw [hplan, addPlanG_eq]
    unfold startPlan
    obtain ⟨m, rfl⟩ : ∃ m, n = m + 1 := ⟨n - 1, by omega⟩
    rw [List.range_succ_eq_map, List.flatMap_cons]
    have hnames : new.flatMap (scalarAdding st data cat store).names = new := by
      simp [scalarAdding]
    rw [hnames, List.append_assoc, List.append_assoc]
    exact List.take_left' (by simp; omega)
  rw [htake] at h
  obtain ⟨-, hrun⟩ := exec_ok h
  obtain ⟨f, rows, full, hf, hr, hfull, -⟩ := hd 0 hn
  have h0 := hrun 0
  rw [effsOf_append, effsOf_map_same, if_pos rfl, effsOf_cons_eff, if_pos rfl, effsOf_cons_eff,
    if_pos rfl, hf] at h0
  simp only [effsOf_nil, List.cons_append, List.nil_append, runFile, stepFile, LCFile.step] at h0
  obtain ⟨full1, g1, -, -, g4⟩ := runFile_newSets new
    { f with extraInit := some true, extraDone := some false } (d1 0) rows full hr hfull h0
  have hother : ∀ i, i < n → (d1 i).isSome := by
    intro i hi
    by_cases hi0 : i = 0
    · subst hi0
      rw [g1]
      rfl
    · have h1 := hrun i
      have hne : ¬ 0 = i := fun e => hi0 e.symm
      rw [effsOf_append, effsOf_map_same, if_neg hne, effsOf_cons_eff, if_neg hne,
        effsOf_cons_eff, if_neg hne] at h1
      simp only [effsOf_nil, List.nil_append, runFile, Except.ok.injEq] at h1
      rw [← h1]
      obtain ⟨f1, _, _, hf1, -⟩ := hd i hi
      rw [hf1]
      rfl
  obtain ⟨d2, e1, e2⟩ := C34_add_again st metas data cat store known n keys d1 _ g1 rfl (by
    intro k hk hp hkn
    change (full1.get? k).isSome
    rw [g4 k]
    rcases hnew k hk hp hkn with hm | ⟨f0, hf0, hs⟩
    · rw [if_pos hm]
      rfl
    · rw [hf] at hf0
      cases hf0
      split
      · rfl
      · unfold LCFile.dataset at hs
        rw [hfull] at hs
        exact hs) hother
  obtain ⟨fa, fb, a1, a2, a3, a4, a5⟩ := e2 0 hn
  rw [g1] at a1
  cases a1
  refine ⟨d2, fb, rows, e1, a2, ?_, a5, ?_⟩
  · rw [a3]
    exact hr
  · intro key hkey
    unfold LCFile.dataset
    rw [a4]
    change full1.get? key = _
    rw [g4 key, if_pos hkey]

/-! ## Names in use -/

/-- The user agrees: the first answer that is `y` or `n` is `y`. -/
def Agrees (answers : List String) : Prop :=
  ∃ pre post, answers = pre ++ "y" :: post ∧ ∀ a ∈ pre, a ≠ "y" ∧ a ≠ "n"

theorem ask_ready (answers : List String) : askProceed answers = .ready ↔ Agrees answers := by
  induction answers with
  | nil =>
    simp only [askProceed, reduceCtorEq, false_iff]
    rintro ⟨pre, post, h, -⟩
    simp at h
  | cons a rest ih =>
    rw [askProceed]
    by_cases hy : a = "y"
    · subst hy
      simp only [if_true, true_iff]
      exact ⟨[], rest, rfl, by simp⟩
    · rw [if_neg hy]
      by_cases hn : a = "n"
      · rw [if_pos hn]
        simp only [reduceCtorEq, false_iff]
        rintro ⟨pre, post, h, hpre⟩
        cases pre with
        | nil =>
          simp only [List.nil_append, List.cons.injEq] at h
          exact hy h.1
        | cons b pre =>
          simp only [List.cons_append, List.cons.injEq] at h
          have := (hpre b (by simp)).2
          exact this (h.1 ▸ hn)
      · rw [if_neg hn, ih]
        constructor
        · rintro ⟨pre, post, h, hpre⟩
          refine ⟨a :: pre, post, by rw [h]; rfl, ?_⟩
          intro b hb
          rcases List.mem_cons.1 hb with rfl | hb
          · exact ⟨hy, hn⟩
          · exact hpre b hb
        · rintro ⟨pre, post, h, hpre⟩
          cases pre with
          | nil =>
            simp only [List.nil_append, List.cons.injEq] at h
            exact absurd h.1 hy
          | cons b pre =>
            simp only [List.cons_append, List.cons.injEq] at h
            exact ⟨pre, post, h.2, fun x hx => hpre x (by simp [hx])⟩

/-- **C35.** With a name that is in use, a maker is made if and only if overwriting was requested,
or asking was requested and the user agreed. -/
theorem C35_consent (name : String) (ow : Overwrite) (answers : List String) (sets : Sets K)
    (d : Folder K) (hd : sets name = some d) :
    (initMaker name ow answers sets).2 = .ready ↔
      ow = .yes ∨ (ow = .check ∧ Agrees answers) := by
  unfold initMaker
  rw [hd, ← ask_ready]
  cases ow <;> simp

/-- **C35, making a maker changes no existing lightcones.** -/
theorem C35_init_keeps (name : String) (ow : Overwrite) (answers : List String) (sets : Sets K)
    (other : String) (d : Folder K) (hd : sets other = some d) :
    (initMaker name ow answers sets).1 other = some d := by
  unfold initMaker
  split
  · exact hd
  · split
    · exact hd
    · exact hd
    · exact hd
    · rename_i h _
      by_cases hn : other = name
      · subst hn
        rw [hd] at h
        cases h
      · simp only
        rw [Function.update_of_ne hn]
        exact hd

/-- **C35, without consent nothing is built.** If existing lightcones change in any way by making a
maker and building with it, then they have the name that was given, and overwriting was requested,
or asking was requested and the user agreed. -/
theorem C35_no_loss (name : String) (ow : Overwrite) (answers : List String) (st : Settings K)
    (skies : List (Sky K)) (metas : List (SnapMeta K)) (data : ℕ → SnapData K) (bins : List K)
    (sets : Sets K) (other : String) (d : Folder K) (hd : sets other = some d)
    (h : (initAndBuild name ow answers st skies metas data bins sets).1 other ≠ some d) :
    other = name ∧ (ow = .yes ∨ (ow = .check ∧ Agrees answers)) := by
  have hk := C35_init_keeps name ow answers sets other d hd
  unfold initAndBuild at h
  rcases hr : initMaker name ow answers sets with ⟨sets', r⟩
  rw [hr] at h hk
  simp only at hk
  cases r with
  | error e => exact absurd hk h
  | waiting => exact absurd hk h
  | ready =>
    simp only at h
    rcases hs : sets' name with - | d1
    · rw [hs] at h
      exact absurd hk h
    · rw [hs] at h
      simp only at h
      by_cases hn : other = name
      · subst hn
        refine ⟨rfl, ?_⟩
        rw [← C35_consent other ow answers sets d hd, hr]
      · exfalso
        apply h
        rcases exec (buildPlan st skies metas data bins) d1 with ⟨d2, e | u⟩
        · simp only
          rw [Function.update_of_ne hn]
          exact hk
        · simp only
          rw [Function.update_of_ne hn]
          exact hk

/-! ## Lists of lightcones -/

/-- **C69, lightcones with higher numbers.** Building `n` lightcones leaves the files with numbers
from `n` on as they are. -/
theorem C69_rest_kept (st : Settings K) (skies : List (Sky K)) (metas : List (SnapMeta K))
    (data : ℕ → SnapData K) (bins : List K) (d : Folder K) (k i : ℕ) (hi : skies.length ≤ i) :
    (exec ((buildPlan st skies metas data bins).take k) d).1 i = d i := by
  obtain ⟨p1, hp, -, hrun⟩ := crash_file (buildPlan st skies metas data bins) d k
  have h := hrun i
  have hpre := effsOf_prefix hp i
  rw [effsOf_buildPlan_none st skies metas data bins i hi, List.prefix_nil] at hpre
  rw [hpre] at h
  simp only [runFile, Except.ok.injEq] at h
  exact h.symm

/-- **C69, partial.** Iterating over a set of lightcones gives those of the last build, if the set
had no lightcone with a higher number, or if the maker itself is asked for the list. -/
theorem C69_list_partial (st : Settings K) (skies : List (Sky K)) (metas : List (SnapMeta K))
    (data : ℕ → SnapData K) (bins : List K) (d d' : Folder K)
    (h : exec (buildPlan st skies metas data bins) d = (d', .ok ()))
    (hd : ∀ i, skies.length ≤ i → d i = none) :
    listed d' = iterNumbers skies.length ∧
    ∀ i ∈ iterNumbers skies.length, ∃ sky f, skies[i]? = some sky ∧ d' i = some f ∧
      Complete st sky metas data bins f := by
  have h2 : ∀ i ∈ iterNumbers skies.length, ∃ sky f, skies[i]? = some sky ∧ d' i = some f ∧
      Complete st sky metas data bins f := by
    intro i hi
    have hi' : i < skies.length := hi
    obtain ⟨f, hf, -, -, -, hc⟩ := C34_build_again st skies metas data bins d d' h i skies[i]
      (List.getElem?_eq_getElem hi')
    exact ⟨skies[i], f, List.getElem?_eq_getElem hi', hf, hc⟩
  refine ⟨?_, h2⟩
  ext i
  constructor
  · intro hi
    by_contra hlt
    have hge : skies.length ≤ i := by
      simp only [iterNumbers, Set.mem_ofPred_eq] at hlt
      omega
    have hk := C69_rest_kept st skies metas data bins d (buildPlan st skies metas data bins).length
      i hge
    rw [List.take_length, h] at hk
    simp only at hk
    simp only [listed, Set.mem_ofPred_eq] at hi
    rw [hk, hd i hge] at hi
    cases hi
  · intro hi
    obtain ⟨sky, f, -, hf, -⟩ := h2 i hi
    simp [listed, hf]

/-- **C69 fails** whenever the set had a lightcone with a number from `n` on: it is still listed, as
it was. -/
theorem C69_stale (st : Settings K) (skies : List (Sky K)) (metas : List (SnapMeta K))
    (data : ℕ → SnapData K) (bins : List K) (d d' : Folder K)
    (h : exec (buildPlan st skies metas data bins) d = (d', .ok ())) (i : ℕ)
    (hi : skies.length ≤ i) (old : LCFile K) (hold : d i = some old) :
    i ∈ listed d' ∧ d' i = some old := by
  have hk := C69_rest_kept st skies metas data bins d (buildPlan st skies metas data bins).length
    i hi
  rw [List.take_length, h] at hk
  simp only at hk
  rw [hold] at hk
  exact ⟨by simp [listed, hk], hk⟩

end Verif.LC
