import Verif.Props.LCOpen
import Verif.Props.LCSource

set_option linter.unusedSectionVars false

/-!
# C119: from the raw halos to what the handler of a lightcone shows
-/

namespace Verif.LC

open Verif.Sim (Err SnapMeta)
open Verif.Format (Col File Disk Run History firstGroup)
open Verif.Format.Spec (groupOf)
open Verif.Handler (State)
open Verif.Handler.Spec (Reachable)
open Verif.LC.Spec
open Matrix

variable {K : Type} [Field K] [LinearOrder K] [IsStrictOrderedRing K] [FloorRing K]

/-- An `LCMaker` knows the units of all properties it knows. -/
theorem simAttr_known (file : File K) (metas : List (SnapMeta K)) (h : makerMetas file = .ok metas)
    (k : String) (hk : k ∈ keysOf file) : (simAttr file k).isSome := by
  unfold makerMetas at h
  cases hm : file.metas with
  | none => rw [hm] at h; simp at h
  | some l =>
    rw [hm] at h
    simp only at h
    split at h
    · cases h
    unfold keysOf at hk
    unfold simAttr
    cases hg : firstGroup file.groups with
    | none => rw [hg] at h; simp at h
    | some g =>
      rw [hg] at h hk
      simp only at h hk ⊢
      split at h
      · rename_i hall
        obtain ⟨D, hD⟩ := Option.isSome_iff_exists.1 ((PyDict.mem_keys_iff _ _).1 hk)
        have := List.all_eq_true.1 hall (k, D) (Format.dict_mem _ _ _ hD)
        simp only [Bool.and_eq_true] at this
        obtain ⟨u, hu⟩ := Option.isSome_iff_exists.1 this.1
        obtain ⟨e, he⟩ := Option.isSome_iff_exists.1 this.2
        simp [hD, hu, he]
      · cases h

/-- Lightcones built and opened from a file whose rows are those of raw data. -/
theorem opened_of (file : File K) (orig : ℕ → Origin K) (horig : ReadsAs file orig)
    (hmetas : ∀ metas, makerMetas file = .ok metas → (metas.map (·.index)).Nodup) :
    ∀ (st : Settings K) (skies : List (Sky K)) (bins : List K) (store : K → K) (keys : List String)
      (plan plan2 : List (Step K)) (f0 f1 f2 : Folder K),
      buildFrom file st skies bins = some plan → exec plan f0 = (f1, .ok ()) →
      addFrom file st store skies.length keys f1 = some plan2 → exec plan2 f1 = (f2, .ok ()) →
      (∀ k ∈ ["pos_x", "pos_y", "pos_z", "mass"], k ∈ keysOf file) →
      (∀ key, key ++ "_x" ∈ keysOf file → key ++ "_y" ∈ keysOf file ∧ key ++ "_z" ∈ keysOf file) →
      ∀ (i : ℕ) (sky : Sky K), skies[i]? = some sky → sky.losM *ᵥ sky.los = ![1, 0, 0] →
        sky.paM *ᵥ ![1, 0, 0] = ![1, 0, 0] →
      ∀ (h : K) (inH : Bool) (more : PyDict Handler.Name K),
        ∃ (rows : List (Row K)) (hd : State K), openCone (simAttr file) (f2 i) h inH more = .ok hd ∧
          Reachable hd ∧ hd.nAll = rows.length ∧
          (∃ metas c, makerMetas file = .ok metas ∧
            buildCone st sky metas (sourceOf file) bins = .ok c ∧ c.rows = rows) ∧
          (∀ r ∈ rows, file.groups.get? r.snap ≠ none ∧ st.minMass ≤ r.mass ∧
            ∃ j pos, (orig r.snap).order[r.index]? = some j ∧ (orig r.snap).Raw j "mass" r.mass ∧
              (∀ a, (orig r.snap).Raw j (posName a) (pos a)) ∧
              IsImage st.box (sky.paM * sky.losM) sky.flips sky.start pos
                ![r.posZ, r.posX, r.posY]) ∧
          (∀ q ∈ columns, ∃ u ε, attr (simAttr file) q.1 = some (u, ε) ∧
            Shown hd q.1 ε h (rows.map q.2)) ∧
          ∀ key ∈ keys, key ∉ posKeys → key ∈ keysOf file → key ≠ "masscheck" → key ≠ "mass_cuts" →
            key ∉ ["pos_x", "pos_y", "pos_z", "ra", "dec", "redshift", "mass"] →
            ∃ l u ε, attr (simAttr file) key = some (u, ε) ∧ Shown hd key ε h l ∧
              l.length = rows.length ∧
              ∀ (k : ℕ) (r : Row K) (x : K), rows[k]? = some r → l[k]? = some x →
                ∃ j v, (orig r.snap).order[r.index]? = some j ∧ (orig r.snap).Raw j key v ∧
                  x = store v := by
  have H := objects_of file orig horig hmetas
  intro st skies bins store keys plan plan2 f0 f1 f2 hplan hx hadd hx2 hbasic hvec i sky hi hlos hpa h inH more
  obtain ⟨f, rows, e1, e2, e3, e4⟩ := H st skies bins plan f0 f1 hplan hx i sky hi hlos hpa
  obtain ⟨metas, hm, rfl, -⟩ := buildFrom_ok file st skies bins plan hplan f0 f1 hx
  have hplan2 : plan2 = addPlan st metas (sourceOf file) (catalogueOf file) store (keysOf file)
      (some skies.length) keys f1 := by
    unfold addFrom at hadd
    rw [hm] at hadd
    simp only at hadd
    split at hadd
    · exact (Option.some.inj hadd).symm
    · cases hadd
  let e : Env K := ⟨st, metas, sourceOf file, catalogueOf file, store, keysOf file, skies.length⟩
  have hdes : Described e (simAttr file) :=
    ⟨fun k hk => simAttr_known file metas hm k (hbasic k hk), fun k hk => simAttr_known file metas hm k hk,
      hvec⟩
  have hleft : Left e f1 f2 := ⟨[], f1, .scalar keys, plan2.length, rfl, by
    rw [show (Call.scalar keys).plan e f1 = plan2 from hplan2.symm, List.take_length, hx2]⟩
  obtain ⟨c, g, hd, g1, g2, g3, g4, g5, g6, g7, g8, g9, g10, g11⟩ := C119_opens e (simAttr file) hdes skies
    bins rfl f0 f1 f2 hx hleft i sky hi h inH more
  have hr : rows = c.rows := by
    obtain ⟨f', a1, -, -, -, ⟨c', c1, c2, -, -⟩, -, -⟩ := C34_build_again st skies metas (sourceOf file)
      bins f0 f1 hx i sky hi
    rw [e1] at a1
    cases a1
    rw [e2] at c2
    cases c2
    have g1' : buildCone st sky metas (sourceOf file) bins = .ok c := g1
    rw [c1] at g1'
    cases g1'
    rfl
  subst hr
  refine ⟨c.rows, hd, g4, g5, g7, ⟨metas, c, hm, g1, rfl⟩, e3, g10, ?_⟩
  intro key hkey hpos hknown hmc hcuts hnew
  obtain ⟨f', l, a1, -, a3, a4, a5⟩ := e4 store keys plan2 f2 hadd hx2 key hkey hpos hknown hmc hnew
  rw [g2] at a1
  cases a1
  obtain ⟨u, ε, w1, w2⟩ := g11 key l hcuts a3
  exact ⟨l, u, ε, w1, w2, a4, a5⟩

/-- **C119 from raw halos to the handler.** After any sequence of completed calls of `format`,
lightcones are built from the file, properties are added, and a lightcone is opened: the handler has the
objects of the lightcone, each made of a raw halo, and shows for each of them the mass of this halo,
the position of a periodic image of it, and each of the properties added. -/
theorem C119_raw (d0 : Disk K) (h0 : d0.file = none) (hs : List (Run K × Disk K)) (d : Disk K)
    (hist : History d0 hs d) (file : File K) (hf : d.file = some file) :
    ∃ orig : ℕ → Origin K, (∀ i, groupOf d i ≠ none → (orig i).Of hs i) ∧
    ∀ (st : Settings K) (skies : List (Sky K)) (bins : List K) (store : K → K) (keys : List String)
      (plan plan2 : List (Step K)) (f0 f1 f2 : Folder K),
      buildFrom file st skies bins = some plan → exec plan f0 = (f1, .ok ()) →
      addFrom file st store skies.length keys f1 = some plan2 → exec plan2 f1 = (f2, .ok ()) →
      (∀ k ∈ ["pos_x", "pos_y", "pos_z", "mass"], k ∈ keysOf file) →
      (∀ key, key ++ "_x" ∈ keysOf file → key ++ "_y" ∈ keysOf file ∧ key ++ "_z" ∈ keysOf file) →
      ∀ (i : ℕ) (sky : Sky K), skies[i]? = some sky → sky.losM *ᵥ sky.los = ![1, 0, 0] →
        sky.paM *ᵥ ![1, 0, 0] = ![1, 0, 0] →
      ∀ (h : K) (inH : Bool) (more : PyDict Handler.Name K),
        ∃ (rows : List (Row K)) (hd : State K), openCone (simAttr file) (f2 i) h inH more = .ok hd ∧
          Reachable hd ∧ hd.nAll = rows.length ∧
          (∃ metas c, makerMetas file = .ok metas ∧
            buildCone st sky metas (sourceOf file) bins = .ok c ∧ c.rows = rows) ∧
          (∀ r ∈ rows, groupOf d r.snap ≠ none ∧ st.minMass ≤ r.mass ∧
            ∃ j pos, (orig r.snap).order[r.index]? = some j ∧ (orig r.snap).Raw j "mass" r.mass ∧
              (∀ a, (orig r.snap).Raw j (posName a) (pos a)) ∧
              IsImage st.box (sky.paM * sky.losM) sky.flips sky.start pos
                ![r.posZ, r.posX, r.posY]) ∧
          (∀ q ∈ columns, ∃ u ε, attr (simAttr file) q.1 = some (u, ε) ∧
            Shown hd q.1 ε h (rows.map q.2)) ∧
          ∀ key ∈ keys, key ∉ posKeys → key ∈ keysOf file → key ≠ "masscheck" → key ≠ "mass_cuts" →
            key ∉ ["pos_x", "pos_y", "pos_z", "ra", "dec", "redshift", "mass"] →
            ∃ l u ε, attr (simAttr file) key = some (u, ε) ∧ Shown hd key ε h l ∧
              l.length = rows.length ∧
              ∀ (k : ℕ) (r : Row K) (x : K), rows[k]? = some r → l[k]? = some x →
                ∃ j v, (orig r.snap).order[r.index]? = some j ∧ (orig r.snap).Raw j key v ∧
                  x = store v := by
  obtain ⟨orig, horig⟩ := origins d0 h0 hs d hist file hf
  refine ⟨orig, fun i hi => (horig i hi).1, ?_⟩
  have hgrp : ∀ k, groupOf d k = file.groups.get? k := by intro k; simp [groupOf, hf]
  simp only [hgrp] at horig ⊢
  exact opened_of file orig (fun i hi => (horig i hi).2.2) (metas_nodup d0 h0 hs d hist file hf)

/-- The hypotheses are met: the lightcone of two formatted snapshots, with a property added, is opened;
the handler shows the raw halos of the two snapshots, masses without `h`. -/
example : (match buildFrom (srcFile [7, 9]) (exSt 5) [exSky] exBins with
    | some plan =>
      match exec plan (fun _ => none) with
      | (f1, .ok ()) =>
        match addFrom (srcFile [7, 9]) (exSt 5) id 1 ["spin"] f1 with
        | some plan2 =>
          match exec plan2 f1 with
          | (f2, .ok ()) =>
            match openCone (simAttr (srcFile [7, 9])) (f2 0) (1/2) false [] with
            | .ok hd =>
              (match Handler.returnProperty hd "spin" false none with
                | .ok (some l) => decide (l = [some 5, some 6])
                | _ => false) &&
              (match Handler.returnProperty hd "mass" false none with
                | .ok (some l) => decide (l = [some 2, some 3])
                | _ => false)
            | .error _ => false
          | _ => false
        | none => false
      | _ => false
    | none => false) = true ∧
    (∀ k ∈ ["pos_x", "pos_y", "pos_z", "mass"], k ∈ keysOf (srcFile [7, 9])) := by
  constructor <;> decide +kernel

end Verif.LC
