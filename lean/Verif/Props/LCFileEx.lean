import Verif.Props.LCFile
import Verif.Props.LightConeEx

/-!
# Concrete files of lightcones: the theorems on C33, C34, C35 and C69 apply to them
-/

namespace Verif.LC

open Verif.Sim (Err SnapMeta)
open Matrix

/-- Check a folder at the end of a call without exception. -/
def after (r : Folder ℚ × Except Err Unit) (p : Folder ℚ → Bool) : Bool :=
  match r with
  | (d, .ok ()) => p d
  | (_, .error _) => false

theorem after_ok {r : Folder ℚ × Except Err Unit} {p : Folder ℚ → Bool} (h : after r p = true) :
    r = (r.1, .ok ()) ∧ p r.1 = true := by
  obtain ⟨d, e | u⟩ := r
  · simp [after] at h
  · exact ⟨rfl, h⟩

/-- The files after building two lightcones. -/
def exBuild : Folder ℚ × Except Err Unit :=
  exec (buildPlan (exSt 5) [exSky, exSky] exMetas (exData 10 15) exBins) (fun _ => none)

/-- Velocities and a scalar property of the halos, different in the two snapshots. -/
def exCat : Catalogue ℚ := fun s =>
  [("v_x", [1, s]), ("v_y", [3, 4]), ("v_z", [5, 6]), ("sfr", [(s : ℚ) + 1/2, s])]

/-- The names of the properties. -/
def exKnown : List String := ["v_x", "v_y", "v_z", "sfr"]

/-- The calls used below. -/
def exEnv : Env ℚ := ⟨exSt 5, exMetas, exData 10 15, exCat, id, exKnown, 2⟩

/-- Check one lightcone. -/
def atFile (i : ℕ) (d : Folder ℚ) (p : LCFile ℚ → Bool) : Bool :=
  match d i with
  | some f => p f
  | none => false

theorem exBuild_ok : after exBuild (fun d => atFile 1 d (fun f =>
    decide (f.basicDone = some true) &&
    decide (f.rows.map (fun l => l.map (fun r : Row ℚ => (r.snap, r.index))) =
      some [(9, 0), (7, 1)]))) = true := by
  decide +kernel

/-- C33: two calls after building; the values are those of the sources. -/
example : after (session exEnv [.scalar ["sfr", "masscheck"], .vector ["v"]] exBuild.1) (fun d =>
    atFile 1 d (fun f => decide (f.dataset "sfr" = some [19/2, 7]) &&
      decide (f.dataset "masscheck" = some [3/2, 1]) &&
      decide (f.dataset "v_z" = some [75/13, 109/13]))) = true := by
  decide +kernel

/-! ## C33 -/

/-- C33 as stated for vector properties: the components of each object are those of its source,
mirrored and rotated like the positions. -/
def C33_full : Prop :=
  ∀ (st : Settings ℚ) (skies : List (Sky ℚ)) (metas : List (SnapMeta ℚ)) (data : ℕ → SnapData ℚ)
    (bins : List ℚ) (cat : Catalogue ℚ) (known keys : List String) (d d0 d1 : Folder ℚ),
    (metas.map (·.index)).Nodup →
    exec (buildPlan st skies metas data bins) d = (d0, .ok ()) →
    exec (addPosPlan st metas data cat id known (some skies.length) keys d0) d0 = (d1, .ok ()) →
    ∀ key ∈ keys, key ++ "_x" ∈ known →
    (∀ f0 full, d0 0 = some f0 → f0.full = some full → key ∉ oldPos full) →
    ∀ (i : ℕ) (sky : Sky ℚ), skies[i]? = some sky → Spec.IsRotation (sky.paM * sky.losM) →
    ∃ f rows, d1 i = some f ∧ f.rows = some rows ∧ ∀ b, ∃ l,
      f.dataset (key ++ suffix b) = some l ∧
      List.Forall₂ (VectorRight data cat id (sky.paM * sky.losM) sky.flips key b) rows l

theorem exBuild_new : after exBuild (fun d => atFile 0 d (fun f =>
    match f.full with
    | none => false
    | some full => decide ("v" ∉ oldPos full))) = true := by
  decide +kernel

theorem exBuild_source : after exBuild (fun d => atFile 0 d (fun f =>
    match f.rows with
    | some (r :: _) => decide (r.snap = 9 ∧ r.index = 0)
    | _ => false)) = true := by
  decide +kernel

theorem exVec_ok : after (exec (addPosPlan (exSt 5) exMetas (exData 10 15) exCat id exKnown (some 2)
    ["v"] exBuild.1) exBuild.1) (fun _ => true) = true := by
  decide +kernel

theorem C33_full_false : ¬ C33_full := by
  intro H
  have hb := (after_ok exBuild_ok).1
  have hv := (after_ok exVec_ok).1
  have hready : Ready (snapsUsed (exSt 5) exMetas) 2 exBuild.1 :=
    built_ready (exSt 5) [exSky, exSky] exMetas (exData 10 15) exBins _ _ hb (by decide +kernel)
  have hnew : ∀ f0 full, exBuild.1 0 = some f0 → f0.full = some full → "v" ∉ oldPos full := by
    intro f0 full h0 hf
    have := (after_ok exBuild_new).2
    unfold atFile at this
    rw [h0] at this
    simp only [hf, decide_eq_true_eq] at this
    exact this
  obtain ⟨g, hg, -, -, -, ⟨-, hgl, hgp⟩⟩ := C34_build_again (exSt 5) [exSky, exSky] exMetas
    (exData 10 15) exBins _ _ hb 0 exSky rfl
  have hsrc := (after_ok exBuild_source).2
  unfold atFile at hsrc
  rw [hg] at hsrc
  simp only at hsrc
  rcases hrows : g.rows with - | - | ⟨r, rs⟩
  · rw [hrows] at hsrc; cases hsrc
  · rw [hrows] at hsrc; cases hsrc
  · rw [hrows] at hsrc
    simp only [decide_eq_true_eq] at hsrc
    have hrot : Spec.IsRotation (g.paM * g.losM) := by
      rw [hgl, hgp]
      exact ex_rot
    obtain ⟨b, f', l, x, h1, h2, h3, h4⟩ := C33_vector_mirrored (exSt 5) exMetas (exData 10 15)
      exCat exKnown 2 ["v"] exBuild.1 _ hready hv "v" (by simp) (by decide +kernel) hnew 0 (by omega)
      g hg hrot (r :: rs) hrows exSky.flips 1 rfl 0 r rfl 3 (by
        rw [hsrc.1, hsrc.2]
        exact ⟨[3, 4], rfl, rfl⟩) (by norm_num)
    obtain ⟨f, rows, e1, e2, e3⟩ := H (exSt 5) [exSky, exSky] exMetas (exData 10 15) exBins exCat
      exKnown ["v"] _ _ _ (by decide +kernel) hb hv "v" (by simp) (by decide +kernel) hnew 0 exSky
      rfl ex_rot
    rw [h1] at e1
    cases e1
    obtain ⟨l', e4, e5⟩ := e3 b
    rw [h2] at e4
    cases e4
    obtain ⟨fa, fb, ra, a1, a2, a3, a4, -⟩ := C33_vector_partial (exSt 5) exMetas (exData 10 15)
      exCat id exKnown 2 ["v"] exBuild.1 _ hready hv "v" (by simp) (by decide +kernel) hnew 0
      (by omega)
    rw [hg] at a1
    cases a1
    rw [h1] at a2
    cases a2
    rw [hrows] at a3
    cases a3
    rw [a4] at e2
    cases e2
    cases e5 with
    | cons hx _ =>
      simp only [List.getElem?_cons_zero, Option.some.injEq] at h3
      subst h3
      rw [← hgl, ← hgp] at hx
      exact h4 hx

/-! ## C34 -/

/-- C34 as stated for adding properties: after an interrupted call and a second call without
interruption, lightcones marked as complete have the right values. -/
def C34_full : Prop :=
  ∀ (st : Settings ℚ) (metas : List (SnapMeta ℚ)) (data : ℕ → SnapData ℚ) (cat : Catalogue ℚ)
    (known keys : List String) (n : ℕ) (d d2 : Folder ℚ) (k : ℕ),
    Ready (snapsUsed st metas) n d →
    (let d1 := (exec ((addPlan st metas data cat id known (some n) keys d).take k) d).1
     exec (addPlan st metas data cat id known (some n) keys d1) d1 = (d2, .ok ())) →
    ∀ key ∈ keys, key ∉ posKeys → key ∈ known →
    (∀ f0, d 0 = some f0 → f0.dataset key = none) →
    ∀ i, i < n → ∃ f rows, d2 i = some f ∧ f.rows = some rows ∧ (f.extraDone = some true →
      ∃ l, f.dataset key = some l ∧ List.Forall₂ (ScalarRight data cat id key) rows l)

/-- The files after an interrupted call of `add_properties('sfr')`. -/
def exCrash : Folder ℚ × Except Err Unit :=
  exec ((addPlan (exSt 5) exMetas (exData 10 15) exCat id exKnown (some 2) ["sfr"]
    exBuild.1).take 3) exBuild.1

theorem exBuild_sfr : after exBuild (fun d => atFile 0 d (fun f =>
    decide (f.dataset "sfr" = none))) = true := by
  decide +kernel

theorem exCrash_again : after (exec (addPlan (exSt 5) exMetas (exData 10 15) exCat id exKnown
    (some 2) ["sfr"] exCrash.1) exCrash.1) (fun d => atFile 0 d (fun f =>
      decide (f.extraDone = some true) && decide (f.dataset "sfr" = some [0, 0]) &&
      match f.rows with
      | some (r :: _) => decide (r.snap = 9 ∧ r.index = 0)
      | _ => false)) = true := by
  decide +kernel

theorem C34_full_false : ¬ C34_full := by
  intro H
  have hb := (after_ok exBuild_ok).1
  obtain ⟨ha, hc⟩ := after_ok exCrash_again
  have hready : Ready (snapsUsed (exSt 5) exMetas) 2 exBuild.1 :=
    built_ready (exSt 5) [exSky, exSky] exMetas (exData 10 15) exBins _ _ hb (by decide +kernel)
  obtain ⟨f, rows, h1, h2, h3⟩ := H (exSt 5) exMetas (exData 10 15) exCat exKnown ["sfr"] 2
    exBuild.1 _ 3 hready ha "sfr" (by simp) (by decide +kernel) (by decide +kernel) (by
      intro f0 h0
      have := (after_ok exBuild_sfr).2
      unfold atFile at this
      rw [h0] at this
      simpa using this) 0 (by omega)
  unfold atFile at hc
  rw [h1] at hc
  simp only [Bool.and_eq_true, decide_eq_true_eq] at hc
  obtain ⟨⟨hd, hz⟩, hr⟩ := hc
  obtain ⟨l, h4, h5⟩ := h3 hd
  rw [hz] at h4
  cases h4
  rw [h2] at hr
  cases h5 with
  | cons hx _ =>
    simp only [decide_eq_true_eq] at hr
    obtain ⟨v, hv, hv0⟩ := hx
    rw [hr.1, hr.2] at hv
    have hw : SourceValue (exData 10 15) exCat 9 "sfr" 0 (19/2) := by
      refine ⟨[19/2, 9], ?_, rfl⟩
      decide +kernel
    have := source_unique hv hw
    rw [this] at hv0
    norm_num at hv0

/-- The hypotheses of `C34_lost` hold for this interrupted call. -/
example : after exCrash (fun d => atFile 0 d (fun f =>
    decide (f.dataset "sfr" = some [0, 0]) && decide (f.extraDone = some false)) &&
    atFile 1 d (fun f => decide (f.dataset "sfr" = none))) = true := by
  decide +kernel
example : addPlan (exSt 5) exMetas (exData 10 15) exCat id exKnown (some 2) ["sfr"] exBuild.1 =
    addPlanG (snapsUsed (exSt 5) exMetas) (scalarAdding (exSt 5) (exData 10 15) exCat id) 2 ["sfr"]
      exBuild.1 := by
  have hb := (after_ok exBuild_ok).1
  obtain ⟨g, hg, -, -, -, ⟨⟨c, hc, -, -, hf⟩, -, -⟩⟩ := C34_build_again (exSt 5) [exSky, exSky]
    exMetas (exData 10 15) exBins _ _ hb 0 exSky rfl
  have hs := (after_ok exBuild_sfr).2
  unfold atFile at hs
  unfold addPlan
  rw [hg] at hs ⊢
  simp only [hf]
  simp only [decide_eq_true_eq] at hs
  unfold LCFile.dataset at hs
  rw [hf] at hs
  have hs' : (basicData c.rows).get? "sfr" = none := hs
  have h1 : (["sfr"] : List String).filter (fun k => decide (k ∉ posKeys) &&
      !(basicData c.rows).has k && (decide (k ∈ exKnown) || k == "masscheck")) = ["sfr"] := by
    rw [List.filter_cons_of_pos]
    · rfl
    · unfold PyDict.has
      rw [hs']
      decide +kernel
  rw [h1]
  rfl

/-- C34 for building: an interrupted call leaves one lightcone unfinished, which cannot be opened. -/
example : (fun d => atFile 0 d (fun f => decide (f.full.isSome = false) &&
      decide (f.basicDone = some false))) (exec ((buildPlan (exSt 5) [exSky, exSky] exMetas
        (exData 10 15) exBins).take 6) (fun _ => none)).1 = true := by
  decide +kernel

/-! ## C35 -/

/-- A set of lightcones named `a`. -/
def exSets : Sets ℚ := fun s => if s = "a" then some exBuild.1 else none

/-- C35: the user agrees after a misspelt answer, and refuses. -/
example : (initMaker "a" .check ["yes", "y", "n"] exSets).2 = .ready ∧
    (initMaker "a" .check ["yes", "n", "y"] exSets).2 = .error .valueError ∧
    (initMaker "a" .no ["y"] exSets).2 = .error .valueError ∧
    (initMaker "a" .check [] exSets).2 = .waiting ∧
    (initMaker "b" .no [] exSets).2 = .ready := by
  refine ⟨?_, ?_, ?_, ?_, ?_⟩ <;> rfl

/-- The hypothesis of `C35_no_loss` holds when the user agrees: the lightcones are built again, now
only one, without the properties. -/
example : ((initAndBuild "a" .check ["y"] (exSt 6) [exSky] exMetas (exData 10 15) exBins
    exSets).1 "a").isSome = true ∧
    (match (initAndBuild "a" .check ["y"] (exSt 6) [exSky] exMetas (exData 10 15) exBins
      exSets).1 "a" with
    | some d => atFile 0 d (fun f => decide (f.basicDone = some true))
    | none => false) = true := by
  decide +kernel

/-! ## C69 -/

/-- C69 as stated: after building `n` lightcones, iterating over the set gives these `n`
lightcones. -/
def C69_full : Prop :=
  ∀ (st : Settings ℚ) (skies : List (Sky ℚ)) (metas : List (SnapMeta ℚ)) (data : ℕ → SnapData ℚ)
    (bins : List ℚ) (d d' : Folder ℚ), exec (buildPlan st skies metas data bins) d = (d', .ok ()) →
    listed d' = iterNumbers skies.length

/-- Two lightcones are built, then one with other objects. -/
theorem exTwice_ok : after (exec (buildPlan (exSt 5) [exSky] exMetas (exData 9 16) exBins)
    exBuild.1) (fun _ => true) = true := by
  decide +kernel

theorem C69_full_false : ¬ C69_full := by
  intro H
  have hb := (after_ok exBuild_ok).1
  have h1 := (after_ok exTwice_ok).1
  obtain ⟨g, hg, -⟩ := C34_build_again (exSt 5) [exSky, exSky] exMetas (exData 10 15) exBins _ _ hb 1
    exSky rfl
  have h2 := C69_stale (exSt 5) [exSky] exMetas (exData 9 16) exBins _ _ h1 1 (by simp) g hg
  rw [H _ _ _ _ _ _ _ h1] at h2
  have h3 : (1 : ℕ) < 1 := h2.1
  omega

end Verif.LC
