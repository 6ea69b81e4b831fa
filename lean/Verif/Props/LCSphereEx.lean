import Verif.Props.LCSphereSky
import Verif.Props.LightConeEx
import Verif.Props.LCFile

/-!
# Concrete light spheres; spheres that do not fit (C36), vector properties (C71), refused requests
(C72)
-/

set_option linter.unusedSectionVars false

namespace Verif.LC

open Verif.Sim (Err SnapMeta)

/-! ## C36 -/

/-- A light sphere with radius `R` in a box with edge 10. -/
def exSphere (shape : Shape) (h R : ℚ) : SphereSettings ℚ where
  box := 10
  h := h
  mode := .circle
  angle := 0
  aspect := 1
  zlo := 0
  zhi := R
  dzmin := 0
  dzmax := R
  minMass := 1
  copiesMax := 1
  root := sqrtQ
  assignZ := id
  shape := shape
  arccos := fun x => x
  arctan2 := fun y _ => y
  pi := 3

/-- Mirrored along the second axis, observer at (1, 1, 1). -/
def exSphereSky : Sky ℚ := { exSky with start := fun _ => 1, flips := ![1, -1, 1] }

/-- Three halos, seen at (4, 0, 0), (0, 2, 0) and (0, 0, -3). -/
def exSphereData : ℕ → SnapData ℚ := fun _ =>
  ⟨[(20, 0), (1/20, 3)], [⟨9, ![5, 9, 1]⟩, ⟨8, ![1, 7, 1]⟩, ⟨7, ![1, 9, 8]⟩]⟩

/-- One snapshot with distances from 0 to 20. -/
def exSphereMetas : List (SnapMeta ℚ) :=
  [ { index := 7, redshift := 0, zmin := 0, zmax := 20, tstart := 0, tend := 0, dmin := 0,
      dmax := 20, tdmin := 0, tdmax := 20 } ]

/-- The theorems on C36 apply to light spheres with objects. -/
example : built (buildSphere (exSphere .sphere 1 5) exSphereSky exSphereMetas exSphereData [0, 3])
    (fun c => decide (c.rows.map (fun r : Row ℚ => (r.snap, r.index, r.mass, ![r.posX, r.posY, r.posZ])) =
      [(7, 1, 8, ![0, 2, 0]), (7, 2, 7, ![0, 0, -3]), (7, 0, 9, ![4, 0, 0])]) &&
      decide (c.tab = [(0, 0), (3, 2)])) = true := by
  decide +kernel

/-- The smaller parts of the sphere; for eighths the observer is at the corner of the box. -/
example : built (buildSphere (exSphere .eighth 1 10) exSphereSky exSphereMetas exSphereData [0, 3])
    (fun c => decide (c.rows.map (fun r : Row ℚ => ![r.posX, r.posY, r.posZ]) =
      [![0, 2, 0], ![4, 0, 0], ![0, 0, 7]])) = true := by
  decide +kernel

example : built (buildSphere (exSphere .hemisphere 1 5) exSphereSky exSphereMetas
    (fun _ => ⟨[(20, 0), (1/20, 2)], [⟨9, ![1, 9, 3]⟩, ⟨8, ![1, 9, 8]⟩]⟩) [0, 3])
    (fun c => decide (c.rows.map (fun r : Row ℚ => ![r.posX, r.posY, r.posZ]) = [![0, 0, 2]])) =
    true := by
  decide +kernel

example : built (buildSphere (exSphere .quarter 1 5) exSphereSky exSphereMetas
    (fun _ => ⟨[(20, 0), (1/20, 2)], [⟨9, ![1, 8, 3]⟩, ⟨8, ![1, 9, 3]⟩]⟩) [0, 3])
    (fun c => decide (c.rows.map (fun r : Row ℚ => ![r.posX, r.posY, r.posZ]) = [![0, 1, 2]])) =
    true := by
  decide +kernel

theorem exSphere_consistent (shape : Shape) (h R : ℚ) (hR : 0 ≤ R) :
    Consistent (exSphere shape h R).toSettings exSphereMetas (fun z => max z 0) where
  mono := fun _ _ h => max_le_max h le_rfl
  dzmin := rfl
  dzmax := (max_eq_left hR).symm
  range := hR
  dmin := by decide +kernel
  dmax := by decide +kernel
  zrange := by decide +kernel
  apart := by decide +kernel
  distinct := by decide +kernel

/-- C36 as stated, on completeness: an accepted light sphere contains every image in its shell and
region. -/
def C36_full : Prop :=
  ∀ (st : SphereSettings ℚ) (sky : Sky ℚ) (metas : List (SnapMeta ℚ)) (data : ℕ → SnapData ℚ)
    (bins : List ℚ) (c : Cone ℚ) (D : ℚ → ℚ), sphereCheck st D = .ok () →
    buildSphere st sky metas data bins = .ok c → Consistent st.toSettings metas D →
    (∀ z, 0 ≤ D z) → 0 < st.box → 0 < st.h → (metas.map (·.index)).Nodup →
    (∀ a, sky.flips a = 1 ∨ sky.flips a = -1) →
    ∀ s ∈ snapsUsed st.toSettings metas, ∀ halos, loaded st.toSettings (data s.index) = .ok halos →
    ∀ (n : ℕ) (halo : Halo ℚ), halos[n]? = some halo → ∀ v : Vec ℚ,
      Spec.IsCopy st.box sky.flips sky.start halo.pos v → Spec.Region st.shape v →
      max (D s.zmin) (D st.zlo) ^ 2 ≤ Spec.dist2 v → Spec.dist2 v < min (D s.zmax) (D st.zhi) ^ 2 →
      ∃ r ∈ c.rows, r.snap = s.index ∧ r.index = n ∧ ![r.posX, r.posY, r.posZ] = v

deriving instance DecidableEq for Halo

theorem ex_loaded : loaded (exSphere .sphere (1/2) 8).toSettings (exSphereData 7) =
    .ok (exSphereData 7).halos := by
  decide +kernel

/-- C36 is false: with `h = 1/2` a sphere of radius 8 Mpc/h in a box of 10 Mpc/h is accepted, and
the image at distance 6 of a halo is missing. -/
theorem C36_full_false : ¬ C36_full := by
  intro h
  rcases hb : buildSphere (exSphere .sphere (1/2) 8) exSphereSky exSphereMetas exSphereData [0]
    with e | c
  · have : built (buildSphere (exSphere .sphere (1/2) 8) exSphereSky exSphereMetas exSphereData [0])
        (fun _ => true) = true := by decide +kernel
    rw [hb] at this
    cases this
  have hck : sphereCheck (exSphere .sphere (1/2) 8) (fun z => max z 0) = .ok () := by
    decide +kernel
  have hmem : exSphereMetas[0] ∈ snapsUsed (exSphere .sphere (1/2) 8).toSettings exSphereMetas := by
    unfold snapsUsed
    rw [(Sim.sortByZ_perm _).mem_iff, List.mem_filter]
    exact ⟨by simp, by decide +kernel⟩
  obtain ⟨r, hr, -, -, e⟩ := h (exSphere .sphere (1/2) 8) exSphereSky exSphereMetas exSphereData [0] c
    (fun z => max z 0) hck hb (exSphere_consistent _ _ _ (by norm_num))
    (fun z => le_max_right _ _) (by decide +kernel) (by decide +kernel) (by decide +kernel)
    (by decide +kernel) exSphereMetas[0] hmem _ ex_loaded 0 ⟨9, ![5, 9, 1]⟩ rfl ![-6, 0, 0]
    ⟨![-1, 1, 0], by decide +kernel⟩ trivial (by decide +kernel) (by decide +kernel)
  obtain ⟨s', hsu', halos', hl', hr'⟩ := sphere_part hb r hr
  obtain ⟨n', halo', h1, h2, h3, h4, h5, -⟩ := mem_sphereRows hr'
  have hcube := spherePos_cube (exSphere .sphere (1/2) 8) exSphereSky (by decide) (by decide +kernel)
    halo'.pos
  rw [← h5] at hcube
  have h6 : (-(10 / 2) : ℚ) ≤ r.at 0 := (hcube 0).1
  have h7 : r.at 0 = -6 := congrFun e 0
  rw [h7] at h6
  norm_num at h6

/-! ## C70 -/

/-- The sky coordinates theorem applies: a real light sphere with an object away from the
observer. -/
example : ∃ (st : SphereSettings ℝ) (sky : Sky ℝ) (metas : List (SnapMeta ℝ))
    (data : ℕ → SnapData ℝ) (c : Cone ℝ), st.Numpy ∧ buildSphere st sky metas data [] = .ok c ∧
    ∃ r ∈ c.rows, Spec.dist2 ![r.posX, r.posY, r.posZ] ≠ 0 := by
  let st : SphereSettings ℝ :=
    { box := 10, h := 1, mode := .circle, angle := 0, aspect := 1, zlo := 0, zhi := 5, dzmin := 0,
      dzmax := 5, minMass := 1, copiesMax := 1, root := Real.sqrt, assignZ := id, shape := .sphere,
      arccos := Real.arccos, arctan2 := fun y x => Complex.arg ⟨x, y⟩, pi := Real.pi }
  let sky : Sky ℝ := ⟨0, fun _ => 1, 0, 1, 1, 0⟩
  let s : SnapMeta ℝ :=
    { index := 7, redshift := 0, zmin := 0, zmax := 20, tstart := 0, tend := 0, dmin := 0,
      dmax := 20, tdmin := 0, tdmax := 20 }
  let halo : Halo ℝ := ⟨2, ![1, 2, 3]⟩
  let data : ℕ → SnapData ℝ := fun _ => ⟨[(3, 0), (1/2, 1)], [halo]⟩
  have hl : loaded st.toSettings (data 7) = .ok [halo] := by
    simp only [loaded, st, data, halo, Sim.getMassIndex]
    norm_num [Sim.pyIndex, finalCount]
  have hu : snapsUsed st.toSettings [s] = [s] := by
    have : ([s] : List (SnapMeta ℝ)).filter (fun t => decide (st.zlo ≤ t.zmax) &&
        decide (st.zhi ≥ t.zmin)) = [s] := by
      simp [st, s]
    unfold snapsUsed
    rw [this]
    rfl
  have hb : buildSphere st sky [s] data [] =
      .ok ((⟨[], []⟩ : Cone ℝ).append (sphereRows st sky s [halo])) := by
    unfold buildSphere
    rw [hu]
    have hl' : loaded st.toSettings (data s.index) = .ok [halo] := hl
    simp only [sphereLoop, hl', List.map_nil]
  refine ⟨st, sky, [s], data, _, ⟨rfl, rfl, fun _ _ => rfl, rfl⟩, hb, ?_⟩
  have hd2 : Spec.dist2 (![1, 2, 3] : Vec ℝ) = 14 := by
    simp [Spec.dist2]
    norm_num
  obtain ⟨r, hr, -, -, e⟩ := C36_complete_partial st sky [s] data [] _ hb (by simp [st])
    (by norm_num [st]) (by norm_num [st]) (by norm_num [st]) s (by rw [hu]; simp)
    (by norm_num [s]) [halo] hl 0 halo rfl ![1, 2, 3]
    ⟨0, by funext a; fin_cases a <;> simp [sky, halo]⟩ trivial
    (by rw [hd2]; norm_num [s, st]) (by rw [hd2]; norm_num [s, st])
  refine ⟨r, hr, ?_⟩
  rw [e, hd2]
  norm_num

/-! ## C71: vector properties of light spheres -/

variable {K : Type} [Field K] [LinearOrder K] [IsStrictOrderedRing K] [FloorRing K]

theorem sphere_write_head (snaps : List (SnapMeta K)) (n : ℕ) (keys : List String) (d : Folder K)
    (hs : snaps ≠ []) (hk : keys ≠ []) (hn : 0 < n) :
    ∃ e rest, writePlan snaps (sphereVectorAdding (K := K)) n keys d = .fail e :: rest := by
  obtain ⟨s, snaps, rfl⟩ := List.exists_cons_of_ne_nil hs
  obtain ⟨k, keys, rfl⟩ := List.exists_cons_of_ne_nil hk
  obtain ⟨m, rfl⟩ : ∃ m, n = m + 1 := ⟨n - 1, by omega⟩
  unfold writePlan
  rw [List.flatMap_cons, List.flatMap_cons, List.range_succ_eq_map, List.flatMap_cons]
  rcases d 0 with - | f
  · exact ⟨_, _, rfl⟩
  · rcases hr : f.rows with - | rows
    · simp only [hr]
      exact ⟨_, _, rfl⟩
    · simp only [hr, sphereVectorAdding]
      exact ⟨_, _, rfl⟩

/-- The keys `add_pos_properties` will add. -/
theorem spherePosPlan_eq {st : SphereSettings K} {metas : List (SnapMeta K)} {known : List String}
    {n : ℕ} {keys : List String} {d : Folder K} {f0 : LCFile K}
    {full : PyDict String (List K)} (h0 : d 0 = some f0) (hf : f0.full = some full)
    {key : String} (hkey : key ∈ keys) (hknown : key ++ "_x" ∈ known) (hold : key ∉ oldPos full) :
    ∃ new, new ≠ [] ∧ key ∈ new ∧ spherePosPlan st metas known (some n) keys d =
      addPlanG (snapsUsed st.toSettings metas) sphereVectorAdding n new d := by
  have hmem : key ∈ (keys.filter (fun k => decide (k ∉ oldPos full) &&
      decide (k ++ "_x" ∈ known))).insertionSort (· ≤ ·) := by
    rw [List.mem_insertionSort, List.mem_filter]
    simp [hkey, hknown, hold]
  refine ⟨_, List.ne_nil_of_mem hmem, hmem, ?_⟩
  unfold spherePosPlan
  rw [h0]
  simp only [hf]

/-- **C71 (fails).** A call of `add_pos_properties` that would add a vector property to light
spheres never succeeds. -/
theorem C71_never (st : SphereSettings K) (metas : List (SnapMeta K)) (known : List String)
    (n : ℕ) (keys : List String) (d d' : Folder K) (f0 : LCFile K)
    (full : PyDict String (List K)) (h0 : d 0 = some f0) (hf : f0.full = some full)
    (key : String) (hkey : key ∈ keys) (hknown : key ++ "_x" ∈ known) (hold : key ∉ oldPos full)
    (hn : 0 < n) (hs : snapsUsed st.toSettings metas ≠ []) :
    exec (spherePosPlan st metas known (some n) keys d) d ≠ (d', .ok ()) := by
  intro h
  obtain ⟨new, hne, -, hp⟩ := spherePosPlan_eq (st := st) (metas := metas) (n := n) h0 hf hkey hknown
    hold
  rw [hp] at h
  obtain ⟨hnf, -⟩ := exec_ok h
  unfold addPlanG at hnf
  have h2 := (NoFail.append.1 (NoFail.append.1 hnf).1).2
  obtain ⟨e, rest, he⟩ := sphere_write_head _ n new d hs hne hn
  rw [he] at h2
  exact h2 _ (List.mem_cons_self) e rfl

/-- **C71, what remains.** After it the light spheres have the same objects, and every dataset is
as before or new and filled with zeros. -/
theorem C71_zeros (st : SphereSettings K) (metas : List (SnapMeta K)) (known : List String)
    (n : ℕ) (keys : List String) (d : Folder K) (f0 : LCFile K)
    (full : PyDict String (List K)) (h0 : d 0 = some f0) (hf : f0.full = some full)
    (key : String) (hkey : key ∈ keys) (hknown : key ++ "_x" ∈ known) (hold : key ∉ oldPos full)
    (hn : 0 < n) (hs : snapsUsed st.toSettings metas ≠ []) (hd : Ready (snapsUsed st.toSettings metas) n d)
    (i : ℕ) (hi : i < n) (f : LCFile K) (hfi : d i = some f) :
    ∃ f' rows, (exec (spherePosPlan st metas known (some n) keys d) d).1 i = some f' ∧
      f.rows = some rows ∧ f'.rows = some rows ∧
      ∀ name, f'.dataset name = f.dataset name ∨
        (f.dataset name = none ∧ f'.dataset name = some (List.replicate rows.length 0)) := by
  obtain ⟨new, hne, -, hp⟩ := spherePosPlan_eq (st := st) (metas := metas) (n := n) h0 hf hkey hknown
    hold
  rw [hp]
  obtain ⟨f1, rows, full1, hf1, hr, hfull, -⟩ := hd i hi
  rw [hfi] at hf1
  cases hf1
  set plan := addPlanG (snapsUsed st.toSettings metas) sphereVectorAdding n new d with hplan
  obtain ⟨p1, hp1, hnf, hrun⟩ := crash_file plan d plan.length
  rw [List.take_length] at hrun
  have hpre : p1 <+: startPlan sphereVectorAdding n new := by
    rw [hplan] at hp1
    unfold addPlanG at hp1
    rcases prefix_append_cases hp1 with hA | ⟨C, hC, rfl⟩
    · rcases prefix_append_cases hA with hB | ⟨C, hC, rfl⟩
      · exact hB
      · obtain ⟨e, rest, he⟩ := sphere_write_head (snapsUsed st.toSettings metas) n new d hs hne hn
        rw [he] at hC
        cases C with
        | nil => simp
        | cons c C =>
          obtain ⟨rfl, -⟩ := List.cons_prefix_cons.1 hC
          exact absurd rfl ((NoFail.append.1 hnf).2 _ (List.mem_cons_self) e)
    · obtain ⟨e, rest, he⟩ := sphere_write_head (snapsUsed st.toSettings metas) n new d hs hne hn
      rw [he] at hnf
      exact absurd rfl ((NoFail.append.1 (NoFail.append.1 hnf).1).2 _ (List.mem_cons_self) e)
  have hpi := effsOf_prefix hpre i
  rw [effsOf_startPlan _ n new i hi] at hpi
  have h1 := hrun i
  rw [hfi] at h1
  rcases he : effsOf i p1 with - | ⟨e1, - | ⟨e2, es⟩⟩
  · rw [he] at h1
    simp only [runFile, Except.ok.injEq] at h1
    exact ⟨f, rows, h1.symm, hr, hr, fun name => Or.inl rfl⟩
  · rw [he] at hpi h1
    simp only [List.cons_prefix_cons] at hpi
    obtain ⟨rfl, -⟩ := hpi
    simp only [runFile, stepFile, LCFile.step, Except.ok.injEq] at h1
    exact ⟨_, rows, h1.symm, hr, hr, fun name => Or.inl rfl⟩
  · rw [he] at hpi h1
    simp only [List.cons_prefix_cons] at hpi
    obtain ⟨rfl, rfl, q, hq⟩ := hpi
    simp only [runFile, stepFile, LCFile.step] at h1
    obtain ⟨l1, l2, -, h2, -⟩ := List.append_eq_map_iff.1 hq
    rw [← h2] at h1
    obtain ⟨full', g1, -, g3, g4⟩ := runFile_newSets l1
      { f with extraInit := some true, extraDone := some false } _ rows full1 hr hfull h1
    refine ⟨_, rows, g1, hr, hr, fun name => ?_⟩
    unfold LCFile.dataset
    simp only [hfull, Option.bind_some]
    rw [g4]
    by_cases hm : name ∈ l1
    · right
      rw [if_pos hm]
      exact ⟨g3 _ hm, rfl⟩
    · left
      rw [if_neg hm]

/-- A finished light sphere with one object. -/
def exSphereFile : LCFile ℚ :=
  let rows : List (Row ℚ) := [⟨4, 0, 0, 0, 0, 1, 9, 7, 0⟩]
  ⟨1, 1, some rows, [], some (basicData rows), some true, some false, some false⟩

/-- The theorems on C71 apply to it: adding velocities raises `KeyError` and leaves zeros. -/
example :
    let d : Folder ℚ := fun i => if i = 0 then some exSphereFile else none
    let r := exec (spherePosPlan (exSphere .sphere 1 5) exSphereMetas ["v_x", "v_y", "v_z"] (some 1)
      ["v"] d) d
    (match r.2 with | .ok () => false | .error e => decide (e = .keyError)) &&
      (match r.1 0 with
        | none => false
        | some f => decide (f.dataset "v_x" = some [0]) && decide (f.dataset "v_z" = some [0]) &&
            decide (f.dataset "mass" = some [9])) = true := by
  decide +kernel

example : Ready (snapsUsed (exSphere .sphere 1 5).toSettings exSphereMetas) 1
    (fun i => if i = 0 then some exSphereFile else none) := by
  intro i hi
  have : i = 0 := by omega
  subst this
  refine ⟨_, _, _, rfl, rfl, rfl, ?_⟩
  have hu : snapsUsed (exSphere .sphere 1 5).toSettings exSphereMetas = exSphereMetas := by
    have : exSphereMetas.filter (fun s => decide ((exSphere .sphere 1 5).zlo ≤ s.zmax) &&
        decide ((exSphere .sphere 1 5).zhi ≥ s.zmin)) = exSphereMetas := by
      simp [exSphereMetas, exSphere]
    unfold snapsUsed
    rw [this]
    rfl
  rw [hu]
  exact ⟨by simp [exSphereMetas, blockOf], by simp [exSphereMetas]⟩

/-! ## C72: refused requests -/

/-- **C72 (fails).** A request for a new set that is refused for its geometry leaves an empty set,
so that the name is in use afterwards. -/
theorem C72_left (check : Except Err Unit) (e : Err) (hc : check = .error e) (name : String)
    (ow : Overwrite) (how : ow ≠ .other) (answers : List String) (sets : Sets K)
    (hnew : sets name = none) :
    (initChecked check name ow answers sets).2 = .error e ∧
    (initChecked check name ow answers sets).1 name = some (fun _ => none) ∧
    ∀ answers', initMaker name .no answers' (initChecked check name ow answers sets).1 =
      ((initChecked check name ow answers sets).1, .error .valueError) := by
  have h1 : initMaker name ow answers sets =
      (Function.update sets name (some (fun _ => none)), .ready) := by
    unfold initMaker
    rw [if_neg how, hnew]
  have h2 : initChecked check name ow answers sets =
      (Function.update sets name (some (fun _ => none)), .error e) := by
    unfold initChecked
    rw [h1, hc]
  rw [h2]
  refine ⟨rfl, ?_, ?_⟩
  · simp
  · intro answers'
    unfold initMaker
    simp

/-- **C72, the part that holds.** Making a maker never changes an existing set or another name,
whether it is refused or not. -/
theorem C72_kept_partial (check : Except Err Unit) (name : String) (ow : Overwrite)
    (answers : List String) (sets : Sets K) (name' : String)
    (h : name' ≠ name ∨ (sets name').isSome) :
    (initChecked check name ow answers sets).1 name' = sets name' := by
  have hm : (initChecked check name ow answers sets).1 = (initMaker name ow answers sets).1 := by
    unfold initChecked
    rcases hi : initMaker name ow answers sets with ⟨s', r⟩
    cases r with
    | ready => cases check <;> rfl
    | error e => rfl
    | waiting => rfl
  rw [hm]
  unfold initMaker
  split
  · rfl
  · rcases hn : sets name with - | d
    · rcases h with h | h
      · simp [Function.update_of_ne h]
      · have : name' ≠ name := by
          intro e
          rw [e, hn] at h
          cases h
        simp [Function.update_of_ne this]
    · cases ow <;> rfl

/-- C72 as stated: a refused request changes nothing. -/
def C72_full : Prop :=
  ∀ (check : Except Err Unit) (name : String) (ow : Overwrite) (answers : List String)
    (sets : Sets ℚ) (e : Err), (initChecked check name ow answers sets).2 = .error e →
    (initChecked check name ow answers sets).1 = sets

/-- C72 is false: a full sphere with a radius larger than the box. -/
theorem C72_full_false : ¬ C72_full := by
  intro h
  have hc : sphereCheck (exSphere .sphere 1 30) id = .error .valueError := by decide +kernel
  obtain ⟨h1, h2, -⟩ := C72_left (K := ℚ) _ _ hc "a" .check (by decide) [] (fun _ => none) rfl
  have h3 := h _ _ _ _ _ _ h1
  rw [h3] at h2
  cases h2

/-- The checks accept other requests. -/
example : sphereCheck (exSphere .sphere 1 5) id = .ok () ∧
    sphereCheck (exSphere .other 1 5) id = .error .valueError ∧
    coneCheck (exSt 5) true 20 = .ok () ∧ coneCheck (exSt 5) true 2000 = .error .valueError := by
  decide +kernel

end Verif.LC
