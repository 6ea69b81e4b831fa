import Verif.Lemmas.LCSource
import Verif.Props.FormatRead
import Verif.Props.LCFile
import Verif.Props.LightConeEx

set_option linter.unusedSectionVars false

/-!
# C118: lightcones of a formatted simulation are made of the raw halos
-/

namespace Verif.LC

open Verif.Sim (Err SnapMeta)
open Verif.Sim.Spec (CutTable)
open Verif.Format (Col File Disk Run History LastToFormat)
open Verif.Format.Spec (groupOf metasOf Unique)
open Verif.LC.Spec
open Matrix

variable {K : Type} [Field K] [LinearOrder K] [IsStrictOrderedRing K] [FloorRing K]

/-- If no cut lies between the two values of the minimum mass, the halos considered are the raw halos at
or above the minimum mass. -/
theorem considered (o : Origin K) (hperm : o.order.Perm (List.range o.raw.n)) (dat : SnapData K)
    (hlen : dat.halos.length = o.raw.n) (hsort : dat.halos.Pairwise (fun a b => a.mass ≥ b.mass))
    (ht : o.cat.cuts.Pairwise (· > ·) → CutTable (dat.halos.map (·.mass)) dat.cuts)
    (hcuts : dat.cuts.map (·.1) = o.cat.cuts)
    (hval : ∀ (k : ℕ) (halo : Halo K), dat.halos[k]? = some halo → ∃ j, o.order[k]? = some j ∧
      o.Raw j "mass" halo.mass ∧ ∀ a, o.Raw j (posName a) (halo.pos a)) (st : Settings K)
    (hdec : o.cat.cuts.Pairwise (· > ·)) (hlow : ∃ c ∈ o.cat.cuts, c ≤ st.minMass / st.h)
    (hhigh : ∃ c ∈ o.cat.cuts, st.minMass / st.h < c)
    (hgap : ∀ c ∈ o.cat.cuts, c ≤ st.minMass / st.h → c ≤ st.minMass) :
    ∃ halos, loaded st dat = .ok halos ∧ ∀ j, j < o.raw.n → ∃ (k : ℕ) (m : K),
      o.order[k]? = some j ∧ o.Raw j "mass" m ∧
      (st.minMass ≤ m ↔ ∃ halo, halos[k]? = some halo ∧ halo.mass = m ∧
        ∀ a, o.Raw j (posName a) (halo.pos a)) := by
  rw [← hcuts] at hlow hhigh hgap
  have hex : ∀ P : K → Prop, (∃ c ∈ dat.cuts.map (·.1), P c) → ∃ c ∈ dat.cuts, P c.1 := by
    rintro P ⟨c, hc, hP⟩
    obtain ⟨q, hq, rfl⟩ := List.mem_map.1 hc
    exact ⟨q, hq, hP⟩
  have hl := C52_partial st dat hsort (ht hdec) (hex _ hlow) (hex _ hhigh)
    (fun c hc => hgap c.1 (List.mem_map.2 ⟨c, hc, rfl⟩))
  refine ⟨_, hl, fun j hj => ?_⟩
  have hjm : j ∈ o.order := by
    rw [hperm.mem_iff]
    exact List.mem_range.2 hj
  obtain ⟨k, hk⟩ := List.mem_iff_getElem?.1 hjm
  have hkl : k < dat.halos.length := by
    have := (List.getElem?_eq_some_iff.1 hk).1
    rw [hperm.length_eq, List.length_range] at this
    omega
  obtain ⟨j', hj', r1, r2⟩ := hval k _ (List.getElem?_eq_getElem hkl)
  rw [hk] at hj'
  cases hj'
  refine ⟨k, dat.halos[k].mass, hk, r1, ?_⟩
  obtain ⟨l1, l2, e, g1, g2⟩ := split_sorted st.minMass dat.halos hsort
  have hfil : dat.halos.filter (fun x => decide (st.minMass ≤ x.mass)) = l1 := by
    rw [e, List.filter_append]
    have f1 : l1.filter (fun x => decide (st.minMass ≤ x.mass)) = l1 := by
      rw [List.filter_eq_self]
      intro x hx
      simpa using g1 x hx
    have f2 : l2.filter (fun x => decide (st.minMass ≤ x.mass)) = [] := by
      rw [List.filter_eq_nil_iff]
      intro x hx
      simpa using g2 x hx
    rw [f1, f2, List.append_nil]
  rw [hfil]
  constructor
  · intro hm
    have hk1 : k < l1.length := by
      by_contra hlt
      have hmem : dat.halos[k] ∈ l2 := by
        refine List.mem_iff_getElem?.2 ⟨k - l1.length, ?_⟩
        have : dat.halos[k]? = l2[k - l1.length]? := by
          rw [e, List.getElem?_append_right (by omega)]
        rw [← this, List.getElem?_eq_getElem hkl]
      exact absurd hm (by simpa using g2 _ hmem)
    refine ⟨dat.halos[k], ?_, rfl, r2⟩
    rw [← List.getElem?_append_left (l₂ := l2) hk1, ← e, List.getElem?_eq_getElem hkl]
  · rintro ⟨halo, hh, hm, -⟩
    rw [← hm]
    simpa using g1 halo (List.mem_of_getElem? hh)

/-- The rows of the file are those of the raw data given by `orig`: every column that can be read, and the
halos read for lightcones, in the order of decreasing mass and with a table of the mass cuts. -/
def ReadsAs (file : File K) (orig : ℕ → Origin K) : Prop :=
  ∀ i, file.groups.get? i ≠ none →
    (∀ (name : String) (v : List K), (catalogueOf file i).get? name = some v →
      ∀ (k : ℕ) (x : K), v[k]? = some x → ∃ j, (orig i).order[k]? = some j ∧ (orig i).Raw j name x) ∧
    ∀ dat, source file i = some (.ok dat) → dat.halos.length = (orig i).raw.n ∧
      dat.halos.Pairwise (fun a b => a.mass ≥ b.mass) ∧
      ((orig i).cat.cuts.Pairwise (· > ·) → CutTable (dat.halos.map (·.mass)) dat.cuts) ∧
      dat.cuts.map (·.1) = (orig i).cat.cuts ∧
      ∀ (k : ℕ) (halo : Halo K), dat.halos[k]? = some halo → ∃ j, (orig i).order[k]? = some j ∧
        (orig i).Raw j "mass" halo.mass ∧ ∀ a, (orig i).Raw j (posName a) (halo.pos a)

/-- Lightcones built from a file whose rows are those of raw data. -/
theorem objects_of (file : File K) (orig : ℕ → Origin K) (horig : ReadsAs file orig)
    (hmetas : ∀ metas, makerMetas file = .ok metas → (metas.map (·.index)).Nodup) :
    ∀ (st : Settings K) (skies : List (Sky K)) (bins : List K) (plan : List (Step K))
      (f0 f1 : Folder K), buildFrom file st skies bins = some plan → exec plan f0 = (f1, .ok ()) →
      ∀ (i : ℕ) (sky : Sky K), skies[i]? = some sky → sky.losM *ᵥ sky.los = ![1, 0, 0] →
        sky.paM *ᵥ ![1, 0, 0] = ![1, 0, 0] →
        ∃ f rows, f1 i = some f ∧ f.rows = some rows ∧
          (∀ r ∈ rows, file.groups.get? r.snap ≠ none ∧ st.minMass ≤ r.mass ∧
            ∃ j pos, (orig r.snap).order[r.index]? = some j ∧ (orig r.snap).Raw j "mass" r.mass ∧
              (∀ a, (orig r.snap).Raw j (posName a) (pos a)) ∧
              IsImage st.box (sky.paM * sky.losM) sky.flips sky.start pos
                ![r.posZ, r.posX, r.posY]) ∧
          ∀ (store : K → K) (keys : List String) (plan2 : List (Step K)) (f2 : Folder K),
            addFrom file st store skies.length keys f1 = some plan2 →
            exec plan2 f1 = (f2, .ok ()) →
            ∀ key ∈ keys, key ∉ posKeys → key ∈ keysOf file → key ≠ "masscheck" →
              key ∉ ["pos_x", "pos_y", "pos_z", "ra", "dec", "redshift", "mass"] →
              ∃ f' l, f2 i = some f' ∧ f'.rows = some rows ∧ f'.dataset key = some l ∧
                l.length = rows.length ∧
                ∀ (k : ℕ) (r : Row K) (x : K), rows[k]? = some r → l[k]? = some x →
                  ∃ j v, (orig r.snap).order[r.index]? = some j ∧ (orig r.snap).Raw j key v ∧
                    x = store v := by
  intro st skies bins plan f0 f1 hplan hx i sky hi hlos hpa
  obtain ⟨metas, hm, rfl, hsrc⟩ := buildFrom_ok file st skies bins plan hplan f0 f1 hx
  have hnd := hmetas metas hm
  have hgrp : ∀ k dat, source file k = some (.ok dat) → file.groups.get? k ≠ none := by
    intro k dat hk
    obtain ⟨g, _, _, _, _, hg, -⟩ := source_ok file k dat hk
    simp [hg]
  have hbuilt : ∀ (i : ℕ) (sky : Sky K), skies[i]? = some sky → ∃ f c, f1 i = some f ∧
      buildCone st sky metas (sourceOf file) bins = .ok c ∧ f.rows = some c.rows ∧
      f.full = some (basicData c.rows) := by
    intro i sky hi
    obtain ⟨f, e1, -, -, -, ⟨c, c1, c2, -, c4⟩, -, -⟩ := C34_build_again st skies metas (sourceOf file)
      bins f0 f1 hx i sky hi
    exact ⟨f, c, e1, c1, c2, c4⟩
  -- the snapshots of the rows were read
  have hrowsrc : ∀ (sky : Sky K) (c : Cone K), buildCone st sky metas (sourceOf file) bins = .ok c →
      ∀ r ∈ c.rows, source file r.snap = some (.ok (sourceOf file r.snap)) ∧
        ∃ halos, loaded st (sourceOf file r.snap) = .ok halos ∧ r.index < halos.length := by
    intro sky c hc r hr
    obtain ⟨parts, hps, hmade, hrows, -⟩ := buildCone_ok hc
    rw [hrows] at hr
    obtain ⟨P, hP, hr⟩ := List.mem_flatMap.1 hr
    obtain ⟨n, -, cd, hcd, rfl⟩ := mem_partRows hr
    have hPs : P.s ∈ snapsUsed st metas := by rw [← hps]; exact List.mem_map.2 ⟨P, hP, rfl⟩
    refine ⟨hsrc P.s hPs, P.halos, (hmade P hP).loaded, ?_⟩
    obtain ⟨-, mm, idx, htl⟩ := tiling_ok (hmade P hP).tiling
    have hne : 0 < P.halos.length := by
      obtain ⟨q, hq, -⟩ := mem_candidates.1 (mem_selected.1 hcd).1
      rw [htl.positions, List.getElem?_map] at hq
      obtain ⟨x, hx, -⟩ := Option.map_eq_some_iff.1 hq
      have := ((htl.copies.mem x).1 (List.mem_of_getElem? hx)).1
      omega
    exact Nat.mod_lt _ hne
  obtain ⟨f, c, hfi, hc, hrows, hfull⟩ := hbuilt i sky hi
  refine ⟨f, c.rows, hfi, hrows, ?_, ?_⟩
  · intro r hr
    obtain ⟨h1, halos, hl1, hl2⟩ := hrowsrc sky c hc r hr
    have hg := hgrp _ _ h1
    obtain ⟨s, -, hsn, halo, hhalo, hmass, himg⟩ := C29_image st sky metas (sourceOf file) bins c hc hlos hpa
      r hr
    rw [← hsn] at hhalo
    obtain ⟨-, hdat⟩ := horig r.snap hg
    obtain ⟨-, hsort, -, -, hval⟩ := hdat _ h1
    obtain ⟨j, hj, r1, r2⟩ := hval r.index halo hhalo
    refine ⟨hg, ?_, j, halo.pos, hj, by rw [hmass]; exact r1, r2, himg⟩
    rw [hmass]
    unfold loaded at hl1
    cases hgm : Sim.getMassIndex (sourceOf file r.snap).cuts st.h st.minMass false with
    | error e => rw [hgm] at hl1; cases hl1
    | ok m =>
      have hl3 := loaded_eq_filter st (sourceOf file r.snap) hsort m hgm
      rw [hgm] at hl1
      simp only [Except.ok.injEq] at hl1
      unfold loaded at hl3
      rw [hgm] at hl3
      simp only [Except.ok.injEq] at hl3
      have hmem : halo ∈ ((sourceOf file r.snap).halos.take m).filter
          (fun x => decide (st.minMass ≤ x.mass)) := by
        rw [← hl3]
        rw [← hl1] at hl2
        have := List.getElem_mem hl2
        refine List.mem_iff_getElem?.2 ⟨r.index, ?_⟩
        rw [List.getElem?_eq_getElem hl2]
        rw [← hhalo]
        simp only [List.length_take] at hl2
        rw [List.getElem_take, List.getElem_take, List.getElem?_eq_getElem (by omega)]
      simpa using (List.mem_filter.1 hmem).2
  · intro store keys plan2 f2 hadd hx2 key hkey hpos hknown hmc hnew
    have hplan2 : plan2 = addPlan st metas (sourceOf file) (catalogueOf file) store (keysOf file)
        (some skies.length) keys f1 := by
      unfold addFrom at hadd
      rw [hm] at hadd
      simp only at hadd
      split at hadd
      · exact (Option.some.inj hadd).symm
      · cases hadd
    rw [hplan2] at hx2
    have hready : Ready (snapsUsed st metas) skies.length f1 := by
      intro i' hi'
      obtain ⟨f', c', e1, e2, e3, e4⟩ := hbuilt i' skies[i'] (List.getElem?_eq_getElem hi')
      exact ⟨f', c'.rows, _, e1, e3, e4, built_blocked st _ metas _ bins c' e2 hnd⟩
    have hil : i < skies.length := (List.getElem?_eq_some_iff.1 hi).1
    obtain ⟨g, g', rows', l, k1, k2, k3, k4, k5, k6⟩ := C33_scalar st metas (sourceOf file) (catalogueOf file)
      store (keysOf file) skies.length keys f1 f2 hready hx2 key hkey hpos (Or.inl hknown) (by
        intro f0' hf0'
        obtain ⟨f', c', e1, -, -, e4⟩ := hbuilt 0 skies[0] (List.getElem?_eq_getElem (by omega))
        rw [hf0'] at e1
        cases e1
        unfold LCFile.dataset
        rw [e4]
        simp only [Option.bind_some]
        by_contra hne
        have hmem : key ∈ (basicData c'.rows).keys := by
          rw [PyDict.mem_keys_iff]
          exact Option.isSome_iff_ne_none.2 hne
        exact hnew hmem) i hil
    rw [hfi] at k1
    cases k1
    rw [hrows] at k3
    cases k3
    refine ⟨g', l, k2, k4, k5, k6.length_eq.symm, ?_⟩
    intro k r x hk hkx
    have hsr := (hrowsrc sky c hc r (List.mem_of_getElem? hk)).1
    have hkl : k < c.rows.length := (List.getElem?_eq_some_iff.1 hk).1
    have hright : ScalarRight (sourceOf file) (catalogueOf file) store key r x := by
      have := List.Forall₂.get k6 hkl (by rw [← k6.length_eq]; exact hkl)
      rw [List.getElem?_eq_getElem hkl, Option.some.injEq] at hk
      have hkl' : k < l.length := by rw [← k6.length_eq]; exact hkl
      rw [List.getElem?_eq_getElem hkl', Option.some.injEq] at hkx
      simp only [List.get_eq_getElem] at this
      rw [hk, hkx] at this
      exact this
    obtain ⟨v, hv, rfl⟩ := hright
    unfold SourceValue at hv
    rw [if_neg hmc] at hv
    obtain ⟨col, hcol, hcv⟩ := hv
    obtain ⟨j, hj, hr⟩ := (horig r.snap (hgrp _ _ hsr)).1 key col hcol r.index v hcv
    exact ⟨j, v, hj, hr, rfl⟩

section History

variable (d0 : Disk K) (h0 : d0.file = none) (hs : List (Run K × Disk K)) (d : Disk K)
  (hist : History d0 hs d) (file : File K) (hf : d.file = some file)

include h0 hist hf

/-- What is known of a snapshot in the file. -/
theorem group_origin (i : ℕ) (hi : groupOf d i ≠ none) :
    ∃ (o : Origin K) (g : Format.Group K), o.Of hs i ∧ file.groups.get? i = some g ∧
      g.data.keys.Nodup ∧ Format.Spec.Complete o.cat o.other o.raw i g ∧
      (∀ (name : String) (v : List K), column g name = some (.ok v) → v.length = o.raw.n ∧
        ∀ (k : ℕ) (x : K), v[k]? = some x → ∃ j, o.order[k]? = some j ∧ o.Raw j name x) ∧
      ∀ (k j : ℕ), o.order[k]? = some j → ∀ (name : String) (x y : K), o.Raw j name x → o.Raw j name y →
        x = y := by
  obtain ⟨g, hg⟩ := Option.ne_none_iff_exists'.1 hi
  have hg' : file.groups.get? i = some g := by simpa [groupOf, hf] using hg
  obtain ⟨s, hs1, other, raw, hu, hraw, hc⟩ := (Format.C14_history d0 h0 hs d hist i).2 g hg
  obtain ⟨p, hp, hrows⟩ := hc.rows
  refine ⟨⟨s.1.cat, other, raw, p⟩, g, ⟨⟨s, hs1, rfl, hu, hraw⟩, hp⟩, hg',
    Format.start_names d0 h0 hs d hist i g hg, hc, ?_, ?_⟩
  · intro name v hv
    exact column_origin ⟨s.1.cat, other, raw, p⟩ i g hrows hp hc name v hv
  · intro k j hk name x y hx hy
    exact raw_unique ⟨s.1.cat, other, raw, p⟩ g hrows k j hk name x y hx hy

/-- The origin of each snapshot in the file, and what is read of it. -/
theorem origins : ∃ orig : ℕ → Origin K, ∀ i, groupOf d i ≠ none →
    (orig i).Of hs i ∧
    (∀ k j : ℕ, (orig i).order[k]? = some j → ∀ (name : String) (x y : K), (orig i).Raw j name x →
      (orig i).Raw j name y → x = y) ∧
    (∀ (name : String) (v : List K), (catalogueOf file i).get? name = some v →
      ∀ (k : ℕ) (x : K), v[k]? = some x → ∃ j, (orig i).order[k]? = some j ∧ (orig i).Raw j name x) ∧
    ∀ dat, source file i = some (.ok dat) → dat.halos.length = (orig i).raw.n ∧
      dat.halos.Pairwise (fun a b => a.mass ≥ b.mass) ∧
      ((orig i).cat.cuts.Pairwise (· > ·) → CutTable (dat.halos.map (·.mass)) dat.cuts) ∧
      dat.cuts.map (·.1) = (orig i).cat.cuts ∧
      ∀ (k : ℕ) (halo : Halo K), dat.halos[k]? = some halo → ∃ j, (orig i).order[k]? = some j ∧
        (orig i).Raw j "mass" halo.mass ∧ ∀ a, (orig i).Raw j (posName a) (halo.pos a) := by
  have hall : ∀ i, ∃ o : Origin K, groupOf d i ≠ none → _ := fun i => by
    by_cases hi : groupOf d i = none
    · exact ⟨⟨⟨[], [], 0, [], [], [], [], 0, [], fun _ => []⟩, [], ⟨[], 0⟩, []⟩, fun h => absurd hi h⟩
    · obtain ⟨o, h⟩ := group_origin d0 h0 hs d hist file hf i hi
      exact ⟨o, fun _ => h⟩
  choose orig horig using hall
  refine ⟨orig, fun i hi => ?_⟩
  obtain ⟨g, ho, hg, hnd, hc, hcol, huni⟩ := horig i hi
  refine ⟨ho, huni, ?_, ?_⟩
  · intro name v hv
    exact (hcol name v (catalogue_get file i name v g hg hnd hv)).2
  · intro dat hdat
    obtain ⟨g', ms, xs, ys, zs, h1, h2, h3, h4, h5, h6, h7⟩ := source_ok file i dat hdat
    rw [hg] at h1
    cases h1
    obtain ⟨e1, e2⟩ := haloList_ok ms xs ys zs dat.halos h7
    obtain ⟨D, ms', m1, m2, m3, t, t1, t2, t3⟩ := hc.sorted
    obtain ⟨D', m1', m2'⟩ := column_ok g "mass" ms h3
    rw [m1] at m1'
    cases m1'
    rw [m2] at m2'
    cases m2'
    rw [h2] at t1
    cases t1
    refine ⟨?_, ?_, ?_, t2, ?_⟩
    · rw [← (hcol "mass" ms h3).1, ← e1, List.length_map]
    · rw [← e1, List.pairwise_map] at m3
      exact m3
    · intro hdec
      rw [e1]
      refine ⟨?_, t3⟩
      rw [← t2, List.pairwise_map] at hdec
      exact hdec
    · intro k halo hk
      obtain ⟨k1, k2, k3, k4⟩ := e2 k halo hk
      obtain ⟨j, hj, r1⟩ := (hcol "mass" ms h3).2 k _ k1
      obtain ⟨j2, hj2, r2⟩ := (hcol "pos_x" xs h4).2 k _ k2
      obtain ⟨j3, hj3, r3⟩ := (hcol "pos_y" ys h5).2 k _ k3
      obtain ⟨j4, hj4, r4⟩ := (hcol "pos_z" zs h6).2 k _ k4
      rw [hj] at hj2 hj3 hj4
      cases hj2; cases hj3; cases hj4
      refine ⟨j, hj, r1, fun a => ?_⟩
      match a with
      | 0 => exact r2
      | 1 => exact r3
      | 2 => exact r4

/-- The names of the snapshots in the file's metadata are different. -/
theorem metas_nodup (metas : List (SnapMeta K)) (h : makerMetas file = .ok metas) :
    (metas.map (·.index)).Nodup := by
  obtain ⟨h1, h2⟩ := makerMetas_ok file metas h
  have hex : ∃ i, groupOf d i ≠ none := by
    cases hg : file.groups with
    | nil => exact absurd hg h2
    | cons q qs =>
      refine ⟨q.1, ?_⟩
      simp [groupOf, hf, hg, PyDict.get?]
  obtain ⟨l, hl, hsort, -⟩ := Format.C14_metadata_listed d0 h0 d hist.reached hex
  have : metas = l := by
    have hm : metasOf d = some metas := by simp [metasOf, hf, h1]
    rw [hm] at hl
    cases hl
    rfl
  rw [this]
  exact Format.nodup_of_sorted l hsort

/-- **C118, objects.** After any sequence of completed calls of `format`, the lightcones built from the
file consist of the raw halos: there are catalogues, raw data and an order of the raw halos for
each snapshot (those of the last call that formatted it) such that every object has the mass of the
raw halo at its index, its position is that of a periodic image of this halo, and every
property added later is that of the same halo. -/
theorem C118_objects : ∃ orig : ℕ → Origin K, (∀ i, groupOf d i ≠ none → (orig i).Of hs i) ∧
    ∀ (st : Settings K) (skies : List (Sky K)) (bins : List K) (plan : List (Step K))
      (f0 f1 : Folder K), buildFrom file st skies bins = some plan → exec plan f0 = (f1, .ok ()) →
      ∀ (i : ℕ) (sky : Sky K), skies[i]? = some sky → sky.losM *ᵥ sky.los = ![1, 0, 0] →
        sky.paM *ᵥ ![1, 0, 0] = ![1, 0, 0] →
        ∃ f rows, f1 i = some f ∧ f.rows = some rows ∧
          (∀ r ∈ rows, groupOf d r.snap ≠ none ∧ st.minMass ≤ r.mass ∧
            ∃ j pos, (orig r.snap).order[r.index]? = some j ∧ (orig r.snap).Raw j "mass" r.mass ∧
              (∀ a, (orig r.snap).Raw j (posName a) (pos a)) ∧
              IsImage st.box (sky.paM * sky.losM) sky.flips sky.start pos
                ![r.posZ, r.posX, r.posY]) ∧
          ∀ (store : K → K) (keys : List String) (plan2 : List (Step K)) (f2 : Folder K),
            addFrom file st store skies.length keys f1 = some plan2 →
            exec plan2 f1 = (f2, .ok ()) →
            ∀ key ∈ keys, key ∉ posKeys → key ∈ keysOf file → key ≠ "masscheck" →
              key ∉ ["pos_x", "pos_y", "pos_z", "ra", "dec", "redshift", "mass"] →
              ∃ f' l, f2 i = some f' ∧ f'.rows = some rows ∧ f'.dataset key = some l ∧
                l.length = rows.length ∧
                ∀ (k : ℕ) (r : Row K) (x : K), rows[k]? = some r → l[k]? = some x →
                  ∃ j v, (orig r.snap).order[r.index]? = some j ∧ (orig r.snap).Raw j key v ∧
                    x = store v := by
  obtain ⟨orig, horig⟩ := origins d0 h0 hs d hist file hf
  refine ⟨orig, fun i hi => (horig i hi).1, ?_⟩
  have hgrp : ∀ k, groupOf d k = file.groups.get? k := by intro k; simp [groupOf, hf]
  simp only [hgrp] at horig ⊢
  exact objects_of file orig (fun i hi => (horig i hi).2.2) (metas_nodup d0 h0 hs d hist file hf)

/-- **C118, halos.** If the minimum mass is in the range of the mass cuts and no cut lies above it and at
or below it divided by `h`, the halos considered of a snapshot are the raw halos at or above the
minimum mass. -/
theorem C118_considered_partial (i : ℕ) (hi : groupOf d i ≠ none) (dat : SnapData K)
    (hdat : source file i = some (.ok dat)) (st : Settings K) :
    ∃ o : Origin K, o.Of hs i ∧ (o.cat.cuts.Pairwise (· > ·) →
      (∃ c ∈ o.cat.cuts, c ≤ st.minMass / st.h) → (∃ c ∈ o.cat.cuts, st.minMass / st.h < c) →
      (∀ c ∈ o.cat.cuts, c ≤ st.minMass / st.h → c ≤ st.minMass) →
      ∃ halos, loaded st dat = .ok halos ∧ ∀ j, j < o.raw.n → ∃ (k : ℕ) (m : K),
        o.order[k]? = some j ∧ o.Raw j "mass" m ∧
        (st.minMass ≤ m ↔ ∃ halo, halos[k]? = some halo ∧ halo.mass = m ∧
          ∀ a, o.Raw j (posName a) (halo.pos a))) := by
  obtain ⟨orig, horig⟩ := origins d0 h0 hs d hist file hf
  obtain ⟨h1, -, -, h2⟩ := horig i hi
  obtain ⟨hlen, hsort, ht, hcuts, hval⟩ := h2 dat hdat
  refine ⟨orig i, h1, fun hdec hlow hhigh hgap => ?_⟩
  exact considered (orig i) h1.2 dat hlen hsort ht hcuts hval st hdec hlow hhigh hgap

/-- **C118 fails** whenever a mass cut lies above the minimum mass and at or below the minimum mass divided
by `h`: no object of the lightcones is lighter than this cut. -/
theorem C118_light_lost (st : Settings K) (skies : List (Sky K)) (bins : List K) (plan : List (Step K))
    (f0 f1 : Folder K) (hplan : buildFrom file st skies bins = some plan)
    (hx : exec plan f0 = (f1, .ok ())) (i : ℕ) (sky : Sky K) (hi : skies[i]? = some sky)
    (hlos : sky.losM *ᵥ sky.los = ![1, 0, 0]) (hpa : sky.paM *ᵥ ![1, 0, 0] = ![1, 0, 0])
    (cuts : List K) (hcuts : ∀ s ∈ hs, s.1.cat.cuts = cuts) (hdec : cuts.Pairwise (· > ·))
    (cut : K) (hcut : cut ∈ cuts) (hle : cut ≤ st.minMass / st.h)
    (hhigh : ∃ c ∈ cuts, st.minMass / st.h < c) :
    ∃ f rows, f1 i = some f ∧ f.rows = some rows ∧ ∀ r ∈ rows, cut ≤ r.mass := by
  obtain ⟨orig, horig⟩ := origins d0 h0 hs d hist file hf
  obtain ⟨metas, hm, rfl, hsrc⟩ := buildFrom_ok file st skies bins plan hplan f0 f1 hx
  obtain ⟨f, e1, -, -, -, ⟨c, c1, c2, -, c4⟩, -, -⟩ := C34_build_again st skies metas (sourceOf file)
    bins f0 f1 hx i sky hi
  refine ⟨f, c.rows, e1, c2, fun r hr => ?_⟩
  by_contra hlt
  obtain ⟨s, -, hsn, halo, hhalo, hmass, -⟩ := C29_image st sky metas (sourceOf file) bins c c1 hlos hpa
    r hr
  rw [← hsn] at hhalo
  have hs1 : source file r.snap = some (.ok (sourceOf file r.snap)) := by
    obtain ⟨parts, hps, hmade, hrows, -⟩ := buildCone_ok c1
    rw [hrows] at hr
    obtain ⟨P, hP, hr⟩ := List.mem_flatMap.1 hr
    obtain ⟨n, -, cd, hcd, rfl⟩ := mem_partRows hr
    exact hsrc P.s (by rw [← hps]; exact List.mem_map.2 ⟨P, hP, rfl⟩)
  have hg : groupOf d r.snap ≠ none := by
    obtain ⟨g, _, _, _, _, hg, -⟩ := source_ok file _ _ hs1
    simp [groupOf, hf, hg]
  obtain ⟨hof, -, -, hd⟩ := horig r.snap hg
  obtain ⟨-, hsort, ht, hc, -⟩ := hd _ hs1
  have hoc : (orig r.snap).cat.cuts = cuts := by
    obtain ⟨⟨s', hl, hcat, -⟩, -⟩ := hof
    obtain ⟨pre, post, hpp, -⟩ := hl
    rw [← hcat]
    exact hcuts s' (by rw [hpp]; simp)
  rw [hoc] at hc ht
  rw [← hc] at hcut hhigh
  obtain ⟨q, hq, rfl⟩ := List.mem_map.1 hcut
  obtain ⟨q2, hq2, hq3⟩ := hhigh
  obtain ⟨q3, hq4, rfl⟩ := List.mem_map.1 hq2
  exact C52_loses st sky metas (sourceOf file) bins c c1 r.snap hsort (ht hdec) q hq hle ⟨q3, hq4, hq3⟩
    r.index halo hhalo (by rw [← hmass]; exact not_le.1 hlt) r hr ⟨rfl, rfl⟩

end History

/-- **C118 fails** when a new file was made by a catalogue with metadata of more snapshots than it is asked
for: no lightcone with one of them in its redshift range can be built. -/
theorem C118_missing (cat : Format.Cat K) (hc : Format.Spec.Sound cat) (o : Format.Opts)
    (ans : List String) (d : Disk K) (hd : Unique d) (hnew : Format.Spec.NewFile o d)
    (es : List (Format.Eff K)) (hfm : Format.format cat o ans d = some (es, .ok ()))
    (hcons : Format.Spec.Consents o ans) (m : SnapMeta K) (hm : m ∈ cat.metas)
    (hj : m.index ∉ cat.snaps) (file : File K) (hfile : (Format.applyAll d es).file = some file)
    (st : Settings K) (hlo : st.zlo ≤ m.zmax) (hhi : m.zmin ≤ st.zhi) (skies : List (Sky K))
    (bins : List K) (plan : List (Step K)) (hplan : buildFrom file st skies bins = some plan)
    (f0 : Folder K) : (exec plan f0).2 ≠ .ok () := by
  intro hok
  obtain ⟨metas, hmm, -, hsrc⟩ := buildFrom_ok file st skies bins plan hplan f0 (exec plan f0).1
    (by rw [← hok])
  obtain ⟨hl, -⟩ := makerMetas_ok file metas hmm
  have hmetas := ((Format.C14_metadata_rows cat hc o ans d hd es hfm hcons).1 hnew).1
  have hl2 : metas = cat.metas := by
    rw [metasOf, hfile] at hmetas
    simp only [Option.bind_some, hl, Option.some.injEq] at hmetas
    exact hmetas
  obtain ⟨other, -, -, hkeep⟩ := Format.C14_one_run cat hc o ans d hd es hfm hcons
  have hnone : groupOf (Format.applyAll d es) m.index = none :=
    ((hkeep m.index (fun hF => hj hF.1)).1 hnew)
  have hgone : file.groups.get? m.index = none := by simpa [groupOf, hfile] using hnone
  have hused : m ∈ snapsUsed st metas := by
    unfold snapsUsed
    rw [(Sim.sortByZ_perm _).mem_iff, List.mem_filter]
    refine ⟨hl2 ▸ hm, ?_⟩
    simp [hlo, hhi]
  have := hsrc m hused
  simp [source, hgone] at this

/-! ## In full -/

/-- C118 in full: after any sequence of completed calls of `format` with positions, every snapshot in
the redshift range of a lightcone can be read, and all its raw halos at or above the minimum mass
are considered. -/
def C118_full : Prop :=
  ∀ (d0 : Disk ℚ) (hs : List (Run ℚ × Disk ℚ)) (d : Disk ℚ), d0.file = none → History d0 hs d →
    Format.Spec.AllNumbers hs →
    (∀ s ∈ hs, ∀ a, ∃ e, Format.Spec.Promised s.1.cat.basic e ∧ e.sub.name = posName a) →
    ∀ (file : File ℚ) (metas : List (SnapMeta ℚ)), d.file = some file → makerMetas file = .ok metas →
      ∀ st : Settings ℚ, 0 < st.h → 0 ≤ st.minMass → ∀ s ∈ snapsUsed st metas,
        ∃ dat halos o, source file s.index = some (.ok dat) ∧ loaded st dat = .ok halos ∧
          Origin.Of o hs s.index ∧ ∀ j m, j < o.raw.n → o.Raw j "mass" m → st.minMass ≤ m →
            ∃ halo ∈ halos, halo.mass = m ∧ ∀ a, o.Raw j (posName a) (halo.pos a)

/-- A catalogue of the two snapshots of the lightcone examples, asked for `snaps`. -/
def srcCat (snaps : List ℕ) : Format.Cat ℚ where
  snaps := snaps
  metas := exMetas
  numberSnaps := 2
  basic := [("Mass", [⟨"mass", "Msun/h", -1⟩]),
    ("Pos", [⟨"pos_x", "Mpc/h", -1⟩, ⟨"pos_y", "Mpc/h", -1⟩, ⟨"pos_z", "Mpc/h", -1⟩])]
  dm := [("Spin", [⟨"spin", "", 0⟩])]
  matter := []
  transform := []
  h := 1
  cuts := [2, 1/2]
  argsort := Format.demoArgsort

theorem srcCat_sound (snaps : List ℕ) (h1 : snaps.Nodup) (h2 : ∀ i ∈ snaps, i = 7 ∨ i = 9) :
    Format.Spec.Sound (srcCat snaps) := by
  refine ⟨h1, ?_, ?_, Format.demoArgsort_ok⟩
  · simp [srcCat, exMetas]
  · intro i hi
    rcases h2 i hi with rfl | rfl <;> simp [srcCat, exMetas]

/-- The position of a halo seen at distance `x` along the line of sight. -/
def srcPos (x : ℚ) : List ℚ :=
  [exSky.flips 0 * (13 + x * exSky.los 0), exSky.flips 1 * (13 + x * exSky.los 1),
    exSky.flips 2 * (13 + x * exSky.los 2)]

/-- Raw data of two halos at the distances 10 and 14, the lighter one first. -/
def srcRaw : Format.Raw ℚ where
  n := 2
  fields := [("Mass", .one [1, 3/2]), ("Pos", .many [srcPos 10, srcPos 14]), ("Spin", .one [5, 6])]

/-- The disk before `format` is called. -/
def srcDisk : Disk ℚ := { file := none, raw := [(7, srcRaw), (9, srcRaw)] }

/-- The disk after. -/
def srcAfter (snaps : List ℕ) : Disk ℚ :=
  match Format.format (srcCat snaps) {} [] srcDisk with
  | some (es, _) => Format.applyAll srcDisk es
  | none => srcDisk

theorem src_formats (snaps : List ℕ) (h : (Format.format (srcCat snaps) {} [] srcDisk).map (fun r =>
    match r.2 with
    | .ok () => true
    | .error _ => false) = some true) :
    ∃ es, Format.format (srcCat snaps) {} [] srcDisk = some (es, .ok ()) ∧
      srcAfter snaps = Format.applyAll srcDisk es := by
  unfold srcAfter
  cases hf : Format.format (srcCat snaps) {} [] srcDisk with
  | none => rw [hf] at h; cases h
  | some q =>
    obtain ⟨es, r⟩ := q
    rw [hf] at h
    cases r with
    | error e => cases h
    | ok u => exact ⟨es, rfl, rfl⟩

/-- The file. -/
def srcFile (snaps : List ℕ) : File ℚ := (srcAfter snaps).file.getD {}

/-- The hypotheses of `C118_objects` are met: two snapshots are formatted, a lightcone is built and
a property is added; its objects are those of the raw data. -/
example : (match buildFrom (srcFile [7, 9]) (exSt 5) [exSky] exBins with
    | some plan =>
      match exec plan (fun _ => none) with
      | (f1, .ok ()) =>
        match addFrom (srcFile [7, 9]) (exSt 5) id 1 ["spin"] f1 with
        | some plan2 =>
          match exec plan2 f1 with
          | (f2, .ok ()) =>
            ((f2 0).bind (fun f => f.rows)).map (fun rows => rows.map (fun r => (r.snap, r.index, r.mass))) ==
                some [(9, 1, 1), (7, 0, 3/2)] &&
              ((f2 0).bind (fun f => f.dataset "spin")) == some [5, 6]
          | _ => false
        | none => false
      | _ => false
    | none => false) = true := by decide +kernel

theorem src_history (snaps : List ℕ) (h1 : snaps.Nodup) (h2 : ∀ i ∈ snaps, i = 7 ∨ i = 9)
    (h : (Format.format (srcCat snaps) {} [] srcDisk).map (fun r =>
      match r.2 with
      | .ok () => true
      | .error _ => false) = some true) :
    History srcDisk [(⟨srcCat snaps, {}, []⟩, srcDisk)] (srcAfter snaps) := by
  obtain ⟨es, hf, he⟩ := src_formats snaps h
  rw [he]
  exact History.run (History.nil srcDisk) ⟨srcCat snaps, {}, []⟩ es (srcCat_sound snaps h1 h2)
    (by intro h; cases h) hf

theorem src_numbers (snaps : List ℕ) : Format.Spec.AllNumbers [(⟨srcCat snaps, {}, []⟩, srcDisk)] := by
  intro s i other raw hl hu hraw
  obtain ⟨pre, post, he, -, -⟩ := hl
  have hs : s ∈ [((⟨srcCat snaps, {}, []⟩ : Run ℚ), srcDisk)] := by rw [he]; simp
  simp only [List.mem_singleton] at hs
  subst hs
  have hr : raw = srcRaw := by
    simp only [srcDisk, PyDict.get?] at hraw
    split at hraw
    · cases hraw; rfl
    · split at hraw
      · cases hraw; rfl
      · cases hraw
  subst hr
  rcases hu with ⟨-, ho⟩ | ⟨hn, -⟩
  · simp only [Bool.false_eq_true, if_false] at ho
    have ho' : other = [("Spin", [⟨"spin", "", 0⟩])] := ho
    subst ho'
    refine Format.numbers_of _ _ _ ?_
    intro f hf hw c hc
    simp only [srcCat, List.mem_append, List.mem_cons, List.not_mem_nil, or_false] at hf
    rcases hf with (rfl | rfl) | rfl
    · simp [Format.Spec.converted, srcCat, srcRaw, PyDict.get?] at hc
      exact ⟨_, hc.symm⟩
    · simp at hw
    · simp [Format.Spec.converted, srcCat, srcRaw, PyDict.get?] at hc
      exact ⟨_, hc.symm⟩
  · exact absurd (Or.inr (fun i => rfl)) hn

/-- The hypotheses of `C118_considered_partial` and `C118_light_lost` can be met: with `h = 1` no cut lies
between the two values of the minimum mass, with `h = 1/2` one does. -/
example : (∃ c ∈ (srcCat [7, 9]).cuts, c ≤ (exSt 5).minMass / (exSt 5).h) ∧
    (∃ c ∈ (srcCat [7, 9]).cuts, (exSt 5).minMass / (exSt 5).h < c) ∧
    (∀ c ∈ (srcCat [7, 9]).cuts, c ≤ (exSt 5).minMass / (exSt 5).h → c ≤ (exSt 5).minMass) ∧
    ∃ c ∈ (srcCat [7, 9]).cuts, (exSt 5).minMass < c ∧ c ≤ (exSt 5).minMass / (1 / 2) := by
  decide +kernel

/-- C118 is false at full strength. -/
theorem C118_full_false : ¬ C118_full := by
  intro H
  have hex : (srcAfter [7]).file = some (srcFile [7]) := by
    have h : (srcAfter [7]).file.isSome = true := by decide +kernel
    obtain ⟨f, hf⟩ := Option.isSome_iff_exists.1 h
    rw [srcFile, hf]; rfl
  have hmk : makerMetas (srcFile [7]) = .ok exMetas := by decide +kernel
  obtain ⟨dat, halos, o, h1, -⟩ := H srcDisk _ _ rfl (src_history [7] (by simp) (by simp) (by decide +kernel))
    (src_numbers [7]) (by
      intro s hs a
      simp only [List.mem_singleton] at hs
      subst hs
      refine ⟨⟨"Pos", 3, a, ⟨posName a, "Mpc/h", -1⟩⟩, ⟨_, List.mem_cons_of_mem _ List.mem_cons_self, rfl, ?_⟩, rfl⟩
      match a with
      | 0 => rfl
      | 1 => rfl
      | 2 => rfl) (srcFile [7]) exMetas hex hmk (exSt 5) (by norm_num [exSt]) (by norm_num [exSt])
    { index := 9, redshift := 0, zmin := 0, zmax := 12, tstart := 0, tend := 0, dmin := 0,
      dmax := 12, tdmin := 0, tdmax := 12 } (by
        unfold snapsUsed
        rw [(Sim.sortByZ_perm _).mem_iff]
        simp [exMetas, exSt]; norm_num)
  have h2 : readable (srcFile [7]) 9 = false := by decide +kernel
  simp only [readable, h1] at h2
  cases h2

end Verif.LC
