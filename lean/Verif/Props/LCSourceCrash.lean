import Verif.Props.LCOpenSource
import Verif.Props.LCEmpty
import Verif.Props.FormatCrash

set_option linter.unusedSectionVars false

/-!
# C138: lightcones made from a file that interrupted calls of `format` have left
-/

namespace Verif.LC

open Verif.Sim (Err SnapMeta)
open Verif.Sim.Spec (CutTable)
open Verif.Format (Col File Disk Run Reached firstGroup)
open Verif.Format.Spec (groupOf metasOf PartOf)
open Verif.Handler (State)
open Verif.Handler.Spec (Reachable)
open Verif.LC.Spec
open Matrix

variable {K : Type} [Field K] [LinearOrder K] [IsStrictOrderedRing K] [FloorRing K]

/-- The columns of a group that is part of raw data. -/
theorem column_part (o : Origin K) (g : Format.Group K) (hc : PartOf o.cat o.other o.raw g o.order)
    (name : String) (v : List K) (h : column g name = some (.ok v)) :
    v.length = o.raw.n ∧ ∀ (k : ℕ) (x : K), v[k]? = some x →
      ∃ j, o.order[k]? = some j ∧ o.Raw j name x := by
  obtain ⟨D, h1, h2⟩ := column_ok g name v h
  obtain ⟨-, e, he, hn, -, -, hsz, hv⟩ := hc.data name D h1
  rw [h2] at hsz hv
  have hl : v.length = o.raw.n := hsz
  refine ⟨hl, fun k x hk => ?_⟩
  have hko : k < o.order.length := by
    rw [hc.order.length_eq, List.length_range, ← hl]
    exact (List.getElem?_eq_some_iff.1 hk).1
  obtain ⟨w, w1, w2⟩ := hv k o.order[k] (List.getElem?_eq_getElem hko)
  simp only [Format.Spec.row, hk, Option.map_some, Option.some.injEq] at w1
  subst w1
  exact ⟨_, List.getElem?_eq_getElem hko, e, he, hn, w2⟩

section Reached

variable (d0 : Disk K) (h0 : d0.file = none) (d : Disk K) (hd : Reached d0 d) (file : File K)
  (hf : d.file = some file)

include h0 hd hf

/-- What is known of the snapshots in the file. -/
theorem part_reads : ∃ orig : ℕ → Origin K, (∀ i, groupOf d i ≠ none → (orig i).FromCall d0 i) ∧
    ReadsAs file orig := by
  have hgrp : ∀ k, groupOf d k = file.groups.get? k := by intro k; simp [groupOf, hf]
  have hall : ∀ i, ∃ o : Origin K, groupOf d i ≠ none → o.FromCall d0 i ∧ ∃ g, groupOf d i = some g ∧
      PartOf o.cat o.other o.raw g o.order := fun i => by
    by_cases hi : groupOf d i = none
    · exact ⟨⟨⟨[], [], 0, [], [], [], [], 0, [], fun _ => []⟩, [], ⟨[], 0⟩, []⟩, fun h => absurd hi h⟩
    · obtain ⟨g, hg⟩ := Option.ne_none_iff_exists'.1 hi
      obtain ⟨r, d1, other, raw, p, a1, a2, a3, a4, a5, a6⟩ := Format.C129_groups d0 h0 d hd i g hg
      exact ⟨⟨r.cat, other, raw, p⟩, fun _ => ⟨⟨⟨r, d1, a1, a2, rfl, a3, a4, a5⟩, a6.order⟩, g, hg, a6⟩⟩
  choose orig horig using hall
  refine ⟨orig, fun i hi => (horig i hi).1, fun i hi => ?_⟩
  rw [← hgrp] at hi
  obtain ⟨-, g, hg, hc⟩ := horig i hi
  have hnd := Format.reached_names d0 h0 d hd i g hg
  rw [hgrp] at hg
  have hcol := column_part (orig i) g hc
  refine ⟨?_, ?_⟩
  · intro name v hv
    exact (hcol name v (catalogue_get file i name v g hg hnd hv)).2
  · intro dat hdat
    obtain ⟨g', ms, xs, ys, zs, h1, h2, h3, h4, h5, h6, h7⟩ := source_ok file i dat hdat
    rw [hg] at h1
    cases h1
    obtain ⟨e1, e2⟩ := haloList_ok ms xs ys zs dat.halos h7
    obtain ⟨D, m1, m2⟩ := column_ok g "mass" ms h3
    obtain ⟨ms', m3, m4, m5⟩ := hc.sorted D m1
    rw [m2] at m3
    cases m3
    obtain ⟨t2, t3⟩ := m5 _ h2
    refine ⟨?_, ?_, ?_, t2, ?_⟩
    · rw [← (hcol "mass" ms h3).1, ← e1, List.length_map]
    · rw [← e1, List.pairwise_map] at m4
      exact m4
    · intro hdec
      rw [e1]
      refine ⟨?_, t3⟩
      rw [← t2, List.pairwise_map] at hdec
      exact hdec
    · intro k halo hk
      obtain ⟨k1, k2, k3, k4⟩ := e2 k halo hk
      obtain ⟨j, hj, r1⟩ := (hcol "mass" ms h3).2 k _ k1
      obtain ⟨j2, hj2, r2⟩ := (hcol "pos_x" xs h4).2 k _ k2
      obtain ⟨j3, hj3, r3⟩ := (hcol "pos_y" ys h5).2 k _ k3
      obtain ⟨j4, hj4, r4⟩ := (hcol "pos_z" zs h6).2 k _ k4
      rw [hj] at hj2 hj3 hj4
      cases hj2; cases hj3; cases hj4
      refine ⟨j, hj, r1, fun a => ?_⟩
      match a with
      | 0 => exact r2
      | 1 => exact r3
      | 2 => exact r4

/-- The names of the snapshots in the metadata are different. -/
theorem reached_metas_nodup (metas : List (SnapMeta K)) (h : makerMetas file = .ok metas) :
    (metas.map (·.index)).Nodup := by
  obtain ⟨h1, h2⟩ := makerMetas_ok file metas h
  have hex : ∃ i, groupOf d i ≠ none := by
    cases hg : file.groups with
    | nil => exact absurd hg h2
    | cons q qs =>
      refine ⟨q.1, ?_⟩
      simp [groupOf, hf, hg, PyDict.get?]
  obtain ⟨l, hl, hsort, -⟩ := Format.C14_metadata_listed d0 h0 d hd hex
  have : metas = l := by
    have hm : metasOf d = some metas := by simp [metasOf, hf, h1]
    rw [hm] at hl
    cases hl
    rfl
  rw [this]
  exact Format.nodup_of_sorted l hsort

/-- **C138, objects.** After any sequence of calls of `format`, each completed, failed or interrupted
at any write: if lightcones can be built from the file, they consist of the raw halos.  There are a
catalogue, raw data and an order of the raw halos for each snapshot (those of one call) such that
every object has the mass of the raw halo at its index, at least the minimum mass, its position is that
of a periodic image of this halo, and every property added by a call that ends normally is that
of the same halo. -/
theorem C138_objects : ∃ orig : ℕ → Origin K, (∀ i, groupOf d i ≠ none → (orig i).FromCall d0 i) ∧
    ∀ (st : Settings K) (skies : List (Sky K)) (bins : List K) (plan : List (Step K))
      (f0 f1 : Folder K), buildFrom file st skies bins = some plan → exec plan f0 = (f1, .ok ()) →
      ∀ (i : ℕ) (sky : Sky K), skies[i]? = some sky → sky.losM *ᵥ sky.los = ![1, 0, 0] →
        sky.paM *ᵥ ![1, 0, 0] = ![1, 0, 0] →
        ∃ f rows, f1 i = some f ∧ f.rows = some rows ∧
          (∀ r ∈ rows, groupOf d r.snap ≠ none ∧ st.minMass ≤ r.mass ∧
            ∃ j pos, (orig r.snap).order[r.index]? = some j ∧ (orig r.snap).Raw j "mass" r.mass ∧
              (∀ a, (orig r.snap).Raw j (posName a) (pos a)) ∧
              IsImage st.box (sky.paM * sky.losM) sky.flips sky.start pos
                ![r.posZ, r.posX, r.posY]) ∧
          ∀ (store : K → K) (keys : List String) (plan2 : List (Step K)) (f2 : Folder K),
            addFrom file st store skies.length keys f1 = some plan2 →
            exec plan2 f1 = (f2, .ok ()) →
            ∀ key ∈ keys, key ∉ posKeys → key ∈ keysOf file → key ≠ "masscheck" →
              key ∉ ["pos_x", "pos_y", "pos_z", "ra", "dec", "redshift", "mass"] →
              ∃ f' l, f2 i = some f' ∧ f'.rows = some rows ∧ f'.dataset key = some l ∧
                l.length = rows.length ∧
                ∀ (k : ℕ) (r : Row K) (x : K), rows[k]? = some r → l[k]? = some x →
                  ∃ j v, (orig r.snap).order[r.index]? = some j ∧ (orig r.snap).Raw j key v ∧
                    x = store v := by
  obtain ⟨orig, ho, hr⟩ := part_reads d0 h0 d hd file hf
  refine ⟨orig, ho, ?_⟩
  have hgrp : ∀ k, groupOf d k = file.groups.get? k := by intro k; simp [groupOf, hf]
  simp only [hgrp]
  exact objects_of file orig hr (reached_metas_nodup d0 h0 d hd file hf)

/-- **C138, from raw halos to the handler.** The same for what the handler of such a lightcone shows. -/
theorem C138_opened : ∃ orig : ℕ → Origin K, (∀ i, groupOf d i ≠ none → (orig i).FromCall d0 i) ∧
    ∀ (st : Settings K) (skies : List (Sky K)) (bins : List K) (store : K → K) (keys : List String)
      (plan plan2 : List (Step K)) (f0 f1 f2 : Folder K),
      buildFrom file st skies bins = some plan → exec plan f0 = (f1, .ok ()) →
      addFrom file st store skies.length keys f1 = some plan2 → exec plan2 f1 = (f2, .ok ()) →
      (∀ k ∈ ["pos_x", "pos_y", "pos_z", "mass"], k ∈ keysOf file) →
      (∀ key, key ++ "_x" ∈ keysOf file → key ++ "_y" ∈ keysOf file ∧ key ++ "_z" ∈ keysOf file) →
      ∀ (i : ℕ) (sky : Sky K), skies[i]? = some sky → sky.losM *ᵥ sky.los = ![1, 0, 0] →
        sky.paM *ᵥ ![1, 0, 0] = ![1, 0, 0] →
      ∀ (h : K) (inH : Bool) (more : PyDict Handler.Name K),
        ∃ (rows : List (Row K)) (hd : State K), openCone (simAttr file) (f2 i) h inH more = .ok hd ∧
          Reachable hd ∧ hd.nAll = rows.length ∧
          (∃ metas c, makerMetas file = .ok metas ∧
            buildCone st sky metas (sourceOf file) bins = .ok c ∧ c.rows = rows) ∧
          (∀ r ∈ rows, groupOf d r.snap ≠ none ∧ st.minMass ≤ r.mass ∧
            ∃ j pos, (orig r.snap).order[r.index]? = some j ∧ (orig r.snap).Raw j "mass" r.mass ∧
              (∀ a, (orig r.snap).Raw j (posName a) (pos a)) ∧
              IsImage st.box (sky.paM * sky.losM) sky.flips sky.start pos
                ![r.posZ, r.posX, r.posY]) ∧
          (∀ q ∈ columns, ∃ u ε, attr (simAttr file) q.1 = some (u, ε) ∧
            Shown hd q.1 ε h (rows.map q.2)) ∧
          ∀ key ∈ keys, key ∉ posKeys → key ∈ keysOf file → key ≠ "masscheck" → key ≠ "mass_cuts" →
            key ∉ ["pos_x", "pos_y", "pos_z", "ra", "dec", "redshift", "mass"] →
            ∃ l u ε, attr (simAttr file) key = some (u, ε) ∧ Shown hd key ε h l ∧
              l.length = rows.length ∧
              ∀ (k : ℕ) (r : Row K) (x : K), rows[k]? = some r → l[k]? = some x →
                ∃ j v, (orig r.snap).order[r.index]? = some j ∧ (orig r.snap).Raw j key v ∧
                  x = store v := by
  obtain ⟨orig, ho, hr⟩ := part_reads d0 h0 d hd file hf
  refine ⟨orig, ho, ?_⟩
  have hgrp : ∀ k, groupOf d k = file.groups.get? k := by intro k; simp [groupOf, hf]
  simp only [hgrp]
  exact opened_of file orig hr (reached_metas_nodup d0 h0 d hd file hf)

/-- **C138, halos.** If the minimum mass is in the range of the mass cuts and no cut lies above it and at
or below it divided by `h`, no raw halo at or above the minimum mass is left out of a snapshot that
can be read. -/
theorem C138_considered_partial (i : ℕ) (hi : groupOf d i ≠ none) (dat : SnapData K)
    (hdat : source file i = some (.ok dat)) (st : Settings K) :
    ∃ o : Origin K, o.FromCall d0 i ∧ (o.cat.cuts.Pairwise (· > ·) →
      (∃ c ∈ o.cat.cuts, c ≤ st.minMass / st.h) → (∃ c ∈ o.cat.cuts, st.minMass / st.h < c) →
      (∀ c ∈ o.cat.cuts, c ≤ st.minMass / st.h → c ≤ st.minMass) →
      ∃ halos, loaded st dat = .ok halos ∧ ∀ j, j < o.raw.n → ∃ (k : ℕ) (m : K),
        o.order[k]? = some j ∧ o.Raw j "mass" m ∧
        (st.minMass ≤ m ↔ ∃ halo, halos[k]? = some halo ∧ halo.mass = m ∧
          ∀ a, o.Raw j (posName a) (halo.pos a))) := by
  obtain ⟨orig, ho, hr⟩ := part_reads d0 h0 d hd file hf
  have hgrp : ∀ k, groupOf d k = file.groups.get? k := by intro k; simp [groupOf, hf]
  obtain ⟨-, h2⟩ := hr i (by rw [← hgrp]; exact hi)
  obtain ⟨hlen, hsort, ht, hcuts, hval⟩ := h2 dat hdat
  refine ⟨orig i, ho i hi, fun hdec hlow hhigh hgap => ?_⟩
  exact considered (orig i) (ho i hi).2 dat hlen hsort ht hcuts hval st hdec hlow hhigh hgap

end Reached

/-! ## Snapshots without some of the properties -/

/-- **C138 fails: zeros instead of values.** If the first snapshot of the simulation has a property
and the nearest snapshot of the lightcones does not (as after an interruption), adding it raises; but
the lightcones can be opened and show 0 for every object.  Calling it again ends normally, marks the
lightcones as complete and leaves the zeros. -/
theorem C138_zeros (e : Env K) (sim : String → Option (String × ℤ)) (hs : Described e sim)
    (skies : List (Sky K)) (bins : List K) (hn : e.n = skies.length) (hsk : skies ≠ [])
    (hnd : (e.metas.map (·.index)).Nodup) (d d0 : Folder K)
    (hbuild : exec (buildPlan e.st skies e.metas e.data bins) d = (d0, .ok ()))
    (hobj : ∀ sky ∈ skies, ∀ c, buildCone e.st sky e.metas e.data bins = .ok c → c.rows ≠ [])
    (key : String) (hpos : key ∉ posKeys) (hne : key ≠ "mass_cuts") (hmc : key ≠ "masscheck")
    (hcol : key ∉ ["pos_x", "pos_y", "pos_z", "ra", "dec", "redshift", "mass"])
    (hknown : key ∈ e.known) (s : SnapMeta K) (rest : List (SnapMeta K))
    (hused : snapsUsed e.st e.metas = s :: rest) (hmiss : (e.cat s.index).get? key = none) :
    ∃ er d1 d2, exec ((Call.scalar [key]).plan e d0) d0 = (d1, .error er) ∧
      exec ((Call.scalar [key]).plan e d1) d1 = (d2, .ok ()) ∧
      ∀ (i : ℕ) (sky : Sky K), skies[i]? = some sky →
        (∃ f, d2 i = some f ∧ f.extraDone = some true) ∧
        ∀ (h : K) (inH : Bool) (more : PyDict Handler.Name K),
          ∃ c st u ε, buildCone e.st sky e.metas e.data bins = .ok c ∧
            openCone sim (d1 i) h inH more = .ok st ∧ openCone sim (d2 i) h inH more = .ok st ∧
            attr sim key = some (u, ε) ∧ key ∈ st.all ∧
            Shown st key ε h (List.replicate c.rows.length 0) := by
  have hbuilt : ∀ i, i < e.n → ∃ f c sky, skies[i]? = some sky ∧ d0 i = some f ∧
      buildCone e.st sky e.metas e.data bins = .ok c ∧ f.rows = some c.rows ∧
      f.full = some (basicData c.rows) ∧ c.rows ≠ [] := by
    intro i hi
    rw [hn] at hi
    obtain ⟨f, e1, -, -, -, ⟨c, c1, c2, -, c4⟩, -, -⟩ := C34_build_again e.st skies e.metas e.data
      bins d d0 hbuild i skies[i] (List.getElem?_eq_getElem hi)
    exact ⟨f, c, skies[i], List.getElem?_eq_getElem hi, e1, c1, c2, c4,
      hobj _ (List.getElem_mem hi) c c1⟩
  have hnokey : ∀ rows : List (Row K), (basicData rows).get? key = none := by
    intro rows
    by_contra hne
    have : key ∈ (basicData rows).keys := (PyDict.mem_keys_iff _ _).2 (Option.isSome_iff_ne_none.2 hne)
    exact hcol this
  have hpos0 : 0 < e.n := by rw [hn]; exact List.length_pos_of_ne_nil hsk
  obtain ⟨f0, c0, sky0, -, a1, -, a3, a4, -⟩ := hbuilt 0 hpos0
  -- the plan
  have hplan : (Call.scalar [key]).plan e d0 = addPlanG (s :: rest)
      (scalarAdding e.st e.data e.cat e.store) e.n [key] d0 := by
    simp only [Call.plan]
    unfold addPlan
    rw [a1]
    simp only [a4, hused]
    have : (basicData c0.rows).has key = false := by
      unfold PyDict.has
      rw [hnokey]
      rfl
    simp [hpos, this, hknown]
  -- the new datasets
  obtain ⟨d1, g1, g2, -⟩ := exec_start [key] (by simp) d0 e.n (by
    intro j hj
    obtain ⟨f, c, -, -, b1, -, b3, b4, b5⟩ := hbuilt j hj
    exact ⟨f, c.rows, _, b1, b3, b5, b4, by
      intro k hk
      rw [List.mem_singleton.1 hk]
      exact hnokey _⟩)
  have hstart : startPlan (scalarAdding e.st e.data e.cat e.store) e.n [key] =
      (List.range e.n).flatMap (fun i => [Step.eff i FEff.beginExtra, .eff i (.setDone false)] ++
        [key].map (fun k => Step.eff i (FEff.newSet k))) := by
    unfold startPlan
    simp [scalarAdding]
  -- the first value is missing
  obtain ⟨er, tail, hwrite⟩ : ∃ er tail, writePlan (s :: rest) (scalarAdding e.st e.data e.cat e.store) e.n
      [key] d0 = .fail er :: tail := by
    obtain ⟨m, hm⟩ : ∃ m, e.n = m + 1 := ⟨e.n - 1, by omega⟩
    have hval : ∃ er, valuesOf e.st e.data e.cat s.index key = .error er := by
      unfold valuesOf
      rcases loaded e.st (e.data s.index) with er | halos
      · exact ⟨er, rfl⟩
      · simp [hmc, hmiss]
    obtain ⟨er, her⟩ := hval
    refine ⟨er, ?_⟩
    unfold writePlan
    rw [hm, List.range_succ_eq_map]
    simp only [List.flatMap_cons, a1, a3, scalarAdding, her, List.cons_append, List.nil_append]
    exact ⟨_, rfl⟩
  have hx1 : exec ((Call.scalar [key]).plan e d0) d0 = (d1, .error er) := by
    rw [hplan, addPlanG_eq, List.append_assoc, hstart, exec_append g1, hwrite]
    rfl
  have hleft : Left e d0 d1 := ⟨[], d0, .scalar [key], ((Call.scalar [key]).plan e d0).length, rfl, by
    rw [List.take_length, hx1]⟩
  obtain ⟨f0', rows0, full0, full0', b1, b2, b3, b4, b5⟩ := g2 0 hpos0
  obtain ⟨d2, hx2, hall⟩ := C34_add_again e.st e.metas e.data e.cat e.store e.known e.n [key] d1 _ b4
    rfl (by
      intro k hk _ _
      rw [List.mem_singleton.1 hk]
      unfold LCFile.dataset
      simp only [Option.bind_some]
      rw [b5]
      simp) (by
      intro i hi
      obtain ⟨_, _, _, _, -, -, -, q, -⟩ := g2 i hi
      rw [q]
      rfl)
  refine ⟨er, d1, d2, hx1, hx2, ?_⟩
  intro i sky hi
  obtain ⟨hlt, -⟩ := List.getElem?_eq_some_iff.1 hi
  rw [← hn] at hlt
  obtain ⟨f, f2, w1, w2, -, w3, w4⟩ := hall i hlt
  refine ⟨⟨f2, w2, w4⟩, ?_⟩
  intro h inH more
  obtain ⟨c, fx, st, k1, k2, k3, k4, k5, k6, k7, k8, k9, k10, k11⟩ := C119_opens e sim hs skies bins hn
    d d0 d1 hbuild hleft i sky hi h inH more
  obtain ⟨fy, rows, full, full', y1, y2, -, y4, y5⟩ := g2 i hlt
  rw [k2] at w1 y4
  cases w1
  cases y4
  have hrows : c.rows = rows := by
    simp only at k3
    rw [y2] at k3
    exact (Option.some.inj k3).symm
  have hds : LCFile.dataset { fy with extraInit := some true, extraDone := some false, full := some full' } key =
      some (List.replicate c.rows.length 0) := by
    unfold LCFile.dataset
    simp only [Option.bind_some]
    rw [y5, hrows]
    simp
  obtain ⟨u, ε, u1, u2⟩ := k11 key _ hne hds
  refine ⟨c, st, u, ε, k1, k4, ?_, u1, (k9 key).2 ⟨hne, by rw [hds]; rfl⟩, u2⟩
  rw [w2, openCone_congr sim w3, ← k2]
  exact k4

/-- The lightcones of the example, with a nearest snapshot that lacks a property. -/
def lackEnv : Env ℚ :=
  { exEnv with cat := fun s => if s = 9 then [("v_x", [1, 9]), ("v_y", [3, 4]), ("v_z", [5, 6])] else exCat s }

/-- The hypotheses of `C138_zeros` are met. -/
example : ∃ er d1 d2, exec ((Call.scalar ["sfr"]).plan lackEnv exBuild.1) exBuild.1 = (d1, .error er) ∧
    exec ((Call.scalar ["sfr"]).plan lackEnv d1) d1 = (d2, .ok ()) := by
  have hs : snapsUsed lackEnv.st lackEnv.metas = exMetas.reverse := by decide +kernel
  obtain ⟨er, d1, d2, h1, h2, -⟩ := C138_zeros lackEnv exSim ⟨ex_described.1, ex_described.2, ex_described.3⟩
    [exSky, exSky] exBins rfl (by simp) (by decide +kernel) (fun _ => none) exBuild.1
    (after_ok exBuild_ok).1 (by
      intro sky hsky c hc hnil
      have hsky' : sky = exSky := by simpa using hsky
      subst hsky'
      have hrows := exRows
      have hc' : buildCone (exSt 5) exSky exMetas (exData 10 15) exBins = .ok c := hc
      rw [hc'] at hrows
      simp [hnil] at hrows) "sfr" (by decide +kernel) (by decide) (by decide) (by decide)
    (by decide +kernel) _ _ hs (by decide +kernel)
  exact ⟨er, d1, d2, h1, h2⟩

/-- The disk of the example of C118 after its call of `format` is interrupted at step `n`. -/
def cutDisk (n : ℕ) : Disk ℚ :=
  match Format.format (srcCat [7, 9]) {} [] srcDisk with
  | some (es, _) => Format.applyAll srcDisk (es.take n)
  | none => srcDisk

def cutFile (n : ℕ) : File ℚ := (cutDisk n).file.getD {}

theorem cut_formats : ∃ es out, Format.format (srcCat [7, 9]) {} [] srcDisk = some (es, out) ∧
    ∀ n, cutDisk n = Format.applyAll srcDisk (es.take n) := by
  have h : (Format.format (srcCat [7, 9]) {} [] srcDisk).isSome = true := by decide +kernel
  obtain ⟨⟨es, out⟩, he⟩ := Option.isSome_iff_exists.1 h
  exact ⟨es, out, he, fun n => by rw [cutDisk, he]⟩

/-- The hypotheses of C138 are met by interruptions at every step. -/
theorem cut_reached (n : ℕ) : Reached srcDisk (cutDisk n) := by
  obtain ⟨es, out, he, hc⟩ := cut_formats
  rw [hc]
  exact Reached.run (Reached.refl srcDisk) ⟨srcCat [7, 9], {}, []⟩ es _ out
    (srcCat_sound _ (by decide) (by simp)) he (List.take_prefix n es)

/-- Interrupted before the last field of the second snapshot: lightcones are built and consist of the
raw halos; adding the missing property fails, adding it again ends normally and there are zeros. -/
def cutRun (n : ℕ) : Option (List (ℕ × ℕ × ℚ) × Bool × Bool × Option (List ℚ)) :=
  match buildFrom (cutFile n) (exSt 5) [exSky] exBins with
  | some plan =>
    match exec plan (fun _ => none) with
    | (f1, .ok ()) =>
      match addFrom (cutFile n) (exSt 5) id 1 ["spin"] f1 with
      | some plan2 =>
        match exec plan2 f1 with
        | (f2, r2) =>
          match addFrom (cutFile n) (exSt 5) id 1 ["spin"] f2 with
          | some plan3 =>
            match exec plan3 f2 with
            | (f3, r3) =>
              some ((((f3 0).bind (fun f => f.rows)).getD []).map (fun r => (r.snap, r.index, r.mass)),
                r2.toOption.isSome, r3.toOption.isSome, (f3 0).bind (fun f => f.dataset "spin"))
          | none => none
      | none => none
    | _ => none
  | none => none

theorem cut_run : cutRun 35 = some ([(9, 1, 1), (7, 0, 3 / 2)], false, true, some [0, 0]) := by
  decide +kernel

/-- One step later, the property is added at once. -/
example : cutRun 36 = some ([(9, 1, 1), (7, 0, 3 / 2)], true, true, some [5, 6]) := by decide +kernel

/-- C138 at full strength: after one call of `format`, interrupted anywhere, and building lightcones,
properties added by a call that ends normally are those of raw halos, also if the call was made
before and raised. -/
def C138_full : Prop :=
  ∀ (cat : Format.Cat ℚ) (o : Format.Opts) (answers : List String) (d0 : Disk ℚ)
    (es P : List (Format.Eff ℚ)) (out : Except Err Unit), Format.Spec.Sound cat → d0.file = none →
    Format.format cat o answers d0 = some (es, out) → P <+: es →
    ∀ (file : File ℚ), (Format.applyAll d0 P).file = some file →
    ∀ (st : Settings ℚ) (sky : Sky ℚ) (bins : List ℚ) (store : ℚ → ℚ) (keys : List String)
      (plan plan2 plan3 : List (Step ℚ)) (f0 f1 f2 f3 : Folder ℚ) (out2 : Except Err Unit),
      buildFrom file st [sky] bins = some plan → exec plan f0 = (f1, .ok ()) →
      addFrom file st store 1 keys f1 = some plan2 → exec plan2 f1 = (f2, out2) →
      addFrom file st store 1 keys f2 = some plan3 → exec plan3 f2 = (f3, .ok ()) →
      ∀ key ∈ keys, key ∉ posKeys → key ∈ keysOf file → key ≠ "masscheck" →
        key ∉ ["pos_x", "pos_y", "pos_z", "ra", "dec", "redshift", "mass"] →
        ∃ f rows l, f3 0 = some f ∧ f.rows = some rows ∧ f.dataset key = some l ∧
          ∀ (k : ℕ) (r : Row ℚ) (x : ℚ), rows[k]? = some r → l[k]? = some x →
            ∃ other raw j v, Format.Spec.Uses cat o d0 other ∧ d0.raw.get? r.snap = some raw ∧
              (⟨cat, other, raw, []⟩ : Origin ℚ).Raw j key v ∧ x = store v

/-- The raw spins of the example are not zero. -/
theorem src_spin (other : Format.Fields) (hu : Format.Spec.Uses (srcCat [7, 9]) {} srcDisk other)
    (j : ℕ) : ¬ (⟨srcCat [7, 9], other, srcRaw, []⟩ : Origin ℚ).Raw j "spin" 0 := by
  rcases hu with ⟨-, ho⟩ | ⟨hn, -⟩
  · simp only [Bool.false_eq_true, if_false] at ho
    have ho' : other = [("Spin", [⟨"spin", "", 0⟩])] := ho
    subst ho'
    rintro ⟨e, he, hname, hv⟩
    have hall : ∀ f ∈ (srcCat [7, 9]).basic, "spin" ∉ f.2.map (·.name) := by decide +kernel
    rcases he with ⟨subs, h1, h2, h3⟩ | ⟨⟨subs, h1, h2, h3⟩, -⟩
    · exact hall _ h1 (hname ▸ List.mem_map.2 ⟨e.sub, List.mem_of_getElem? h3, rfl⟩)
    · simp only [List.mem_singleton, Prod.mk.injEq] at h1
      obtain ⟨hk, rfl⟩ := h1
      have hc : Format.Spec.converted (srcCat [7, 9]) srcRaw "Spin" = some (.one [5, 6]) := rfl
      simp only [Format.Spec.value, hk, hc, h2, List.length_singleton, gt_iff_lt, lt_irrefl, if_false,
        Format.Spec.row] at hv
      match j with
      | 0 => simp at hv
      | 1 => simp at hv
      | n + 2 => simp at hv
  · exact absurd (Or.inr (fun i => rfl)) hn

/-- C138 is false at full strength. -/
theorem C138_full_false : ¬ C138_full := by
  intro H
  obtain ⟨es, out, he, hc⟩ := cut_formats
  have hfile : (cutDisk 35).file = some (cutFile 35) := by
    have h : (cutDisk 35).file.isSome = true := by decide +kernel
    obtain ⟨f, hf⟩ := Option.isSome_iff_exists.1 h
    rw [cutFile, hf]; rfl
  have hrun := cut_run
  unfold cutRun at hrun
  split at hrun
  · rename_i plan hplan
    split at hrun
    · rename_i f1 hf1
      split at hrun
      · rename_i plan2 hplan2
        rcases h2 : exec plan2 f1 with ⟨f2, r2⟩
        rw [h2] at hrun
        simp only at hrun
        split at hrun
        · rename_i plan3 hplan3
          rcases h3 : exec plan3 f2 with ⟨f3, r3⟩
          rw [h3] at hrun
          simp only [Option.some.injEq, Prod.mk.injEq] at hrun
          obtain ⟨k1, -, k3, k4⟩ := hrun
          cases r3 with
          | error e => simp [Except.toOption] at k3
          | ok u =>
            rw [hc] at hfile
            obtain ⟨f, rows, l, a1, a2, a3, a4⟩ := H (srcCat [7, 9]) {} [] srcDisk es _ out
              (srcCat_sound _ (by decide) (by simp)) rfl he (List.take_prefix 35 es) (cutFile 35) hfile
              (exSt 5) exSky exBins id ["spin"] plan plan2 plan3 (fun _ => none) f1 f2 f3 r2 hplan hf1
              hplan2 h2 hplan3 h3 "spin" (by simp) (by decide +kernel) (by decide +kernel) (by decide)
              (by decide)
            rw [a1] at k1 k4
            simp only [Option.bind_some] at k1 k4
            rw [a2] at k1
            rw [a3] at k4
            cases k4
            rcases rows with - | ⟨r, rs⟩
            · simp at k1
            · simp only [Option.getD_some, List.map_cons, List.cons.injEq, Prod.mk.injEq] at k1
              obtain ⟨other, raw, j, v, b1, b2, b3, b4⟩ := a4 0 r 0 rfl rfl
              rw [k1.1.1] at b2
              have hr : raw = srcRaw := (Option.some.inj b2).symm
              subst hr
              have hv : v = 0 := b4.symm
              subst hv
              exact src_spin other b1 j b3
        · cases hrun
      · cases hrun
    · cases hrun
  · cases hrun

end Verif.LC
