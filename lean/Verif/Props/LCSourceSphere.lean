import Verif.Props.LCSource
import Verif.Props.LCSphereEx

set_option linter.unusedSectionVars false

/-!
# C118: light spheres of a formatted simulation are made of the raw halos
-/

namespace Verif.LC

open Verif.Sim (Err SnapMeta)
open Verif.Format (Col File Disk Run History LastToFormat)
open Verif.Format.Spec (groupOf metasOf Unique)
open Verif.LC.Spec

variable {K : Type} [Field K] [LinearOrder K] [IsStrictOrderedRing K] [FloorRing K]

/-- If building from a file ends normally, it is the building from what is read. -/
theorem sphereLoopFrom_ok (st : SphereSettings K) (sky : Sky K) (file : File K)
    (snaps : List (SnapMeta K)) (c c' : Cone K)
    (h : sphereLoopFrom st sky file snaps c = some (.ok c')) :
    sphereLoop st sky (sourceOf file) snaps c = .ok c' ∧
      ∀ s ∈ snaps, source file s.index = some (.ok (sourceOf file s.index)) := by
  induction snaps generalizing c with
  | nil =>
    simp only [sphereLoopFrom, Option.some.injEq, Except.ok.injEq] at h
    subst h
    exact ⟨rfl, by simp⟩
  | cons s snaps ih =>
    rw [sphereLoopFrom] at h
    rcases hs : source file s.index with - | e | dat
    · rw [hs] at h; cases h
    · rw [hs] at h; cases h
    · rw [hs] at h
      simp only at h
      have hso : sourceOf file s.index = dat := by simp only [sourceOf, hs]
      rcases hl : loaded st.toSettings dat with e | halos
      · rw [hl] at h; cases h
      · rw [hl] at h
        simp only at h
        obtain ⟨h1, h2⟩ := ih _ h
        refine ⟨?_, ?_⟩
        · simp only [sphereLoop, hso, hl]
          exact h1
        · intro s' hs'
          rcases List.mem_cons.1 hs' with rfl | hs'
          · rw [hs, hso]
          · exact h2 s' hs'

theorem sphereFrom_ok (file : File K) (st : SphereSettings K) (sky : Sky K) (bins : List K)
    (c : Cone K) (h : sphereFrom file st sky bins = some (.ok c)) :
    ∃ metas, makerMetas file = .ok metas ∧
      buildSphere st sky metas (sourceOf file) bins = .ok c ∧
      ∀ s ∈ snapsUsed st.toSettings metas,
        source file s.index = some (.ok (sourceOf file s.index)) := by
  unfold sphereFrom at h
  rcases hm : makerMetas file with e | metas
  · rw [hm] at h; cases h
  · rw [hm] at h
    obtain ⟨h1, h2⟩ := sphereLoopFrom_ok st sky file _ _ _ h
    exact ⟨metas, rfl, h1, h2⟩

/-- The halos considered have the minimum mass. -/
theorem loaded_heavy (st : Settings K) (dat : SnapData K) (halos : List (Halo K))
    (hl : loaded st dat = .ok halos) (hsort : dat.halos.Pairwise (fun a b => a.mass ≥ b.mass))
    (halo : Halo K) (h : halo ∈ halos) : st.minMass ≤ halo.mass := by
  cases hgm : Sim.getMassIndex dat.cuts st.h st.minMass false with
  | error e =>
    unfold loaded at hl
    rw [hgm] at hl
    cases hl
  | ok m =>
    rw [loaded_eq_filter st dat hsort m hgm] at hl
    simp only [Except.ok.injEq] at hl
    subst hl
    simpa using (List.mem_filter.1 h).2

section History

variable (d0 : Disk K) (h0 : d0.file = none) (hs : List (Run K × Disk K)) (d : Disk K)
  (hist : History d0 hs d) (file : File K) (hf : d.file = some file)

include h0 hist hf

/-- **C118, light spheres.** After any sequence of completed calls of `format`, every object of a
light sphere built from the file has the mass of the raw halo at its index, at least the minimum
mass, and the position of a periodic image of this halo; no halo of a snapshot occurs twice; and,
where the sphere fits into the box, the minimum mass lies in the range of the mass cuts and no cut
lies above it and at or below it divided by `h`, every image, in the requested shell and region, of
every raw halo at or above the minimum mass is an object. -/
theorem C118_sphere_partial : ∃ orig : ℕ → Origin K, (∀ i, groupOf d i ≠ none → (orig i).Of hs i) ∧
    ∀ (st : SphereSettings K) (sky : Sky K) (bins : List K) (c : Cone K),
      sphereFrom file st sky bins = some (.ok c) → st.shape ≠ .other →
      (∀ r ∈ c.rows, groupOf d r.snap ≠ none ∧ st.minMass ≤ r.mass ∧
        ∃ j pos, (orig r.snap).order[r.index]? = some j ∧ (orig r.snap).Raw j "mass" r.mass ∧
          (∀ a, (orig r.snap).Raw j (posName a) (pos a)) ∧
          IsCopy st.box sky.flips sky.start pos ![r.posX, r.posY, r.posZ]) ∧
      (c.rows.map (fun r => (r.snap, (orig r.snap).order[r.index]?))).Nodup ∧
      (0 < st.box → 0 ≤ st.dzmax →
        (if st.shape = .eighth then st.dzmax ≤ st.box else 2 * st.dzmax ≤ st.box) →
        ∀ metas, metasOf d = some metas → ∀ s ∈ metas, st.zlo ≤ s.zmax → s.zmin ≤ st.zhi →
          0 ≤ s.dmax →
          (orig s.index).cat.cuts.Pairwise (· > ·) →
          (∃ x ∈ (orig s.index).cat.cuts, x ≤ st.minMass / st.h) →
          (∃ x ∈ (orig s.index).cat.cuts, st.minMass / st.h < x) →
          (∀ x ∈ (orig s.index).cat.cuts, x ≤ st.minMass / st.h → x ≤ st.minMass) →
          ∀ (j : ℕ) (m : K) (pos v : Fin 3 → K), j < (orig s.index).raw.n →
            (orig s.index).Raw j "mass" m → st.minMass ≤ m →
            (∀ a, (orig s.index).Raw j (posName a) (pos a)) →
            IsCopy st.box sky.flips sky.start pos v → Region st.shape v →
            max s.dmin st.dzmin ^ 2 ≤ dist2 v → dist2 v < min s.dmax st.dzmax ^ 2 →
            ∃ r ∈ c.rows, r.snap = s.index ∧ (orig s.index).order[r.index]? = some j ∧
              r.mass = m ∧ ![r.posX, r.posY, r.posZ] = v) := by
  obtain ⟨orig, horig⟩ := origins d0 h0 hs d hist file hf
  refine ⟨orig, fun i hi => (horig i hi).1, ?_⟩
  intro st sky bins c hc hshape
  obtain ⟨metas, hm, hbuild, hsrc⟩ := sphereFrom_ok file st sky bins c hc
  have hnd := metas_nodup d0 h0 hs d hist file hf metas hm
  have hgrp : ∀ k dat, source file k = some (.ok dat) → groupOf d k ≠ none := by
    intro k dat hk
    obtain ⟨g, _, _, _, _, hg, -⟩ := source_ok file k dat hk
    simp [groupOf, hf, hg]
  have hrow : ∀ r ∈ c.rows, groupOf d r.snap ≠ none ∧ st.minMass ≤ r.mass ∧
      ∃ j pos, (orig r.snap).order[r.index]? = some j ∧ (orig r.snap).Raw j "mass" r.mass ∧
        (∀ a, (orig r.snap).Raw j (posName a) (pos a)) ∧
        IsCopy st.box sky.flips sky.start pos ![r.posX, r.posY, r.posZ] := by
    intro r hr
    obtain ⟨s, hsu, halos, hl, hr'⟩ := sphere_part hbuild r hr
    obtain ⟨n, halo, e1, e2, e3, e4, e5, -⟩ := mem_sphereRows hr'
    have h1 := hsrc s hsu
    have hg := hgrp _ _ h1
    obtain ⟨-, -, -, hdat⟩ := horig s.index hg
    obtain ⟨-, hsort, -, -, hval⟩ := hdat _ h1
    obtain ⟨j, hj, r1, r2⟩ := hval n halo (loaded_get hl e1)
    rw [e2, e3, e4]
    refine ⟨hg, loaded_heavy st.toSettings _ halos hl hsort halo (List.mem_of_getElem? e1), j,
      halo.pos, hj, r1, r2, ?_⟩
    have := spherePos_copy st sky hshape halo.pos
    rw [← e5] at this
    exact this
  refine ⟨hrow, ?_, ?_⟩
  · have hone := C36_once st sky metas (sourceOf file) bins c hbuild hnd
    have hm2 : c.rows.map (fun r => (r.snap, (orig r.snap).order[r.index]?)) =
        (c.rows.map (fun r => (r.snap, r.index))).map
          (fun q => (q.1, (orig q.1).order[q.2]?)) := by
      rw [List.map_map]; rfl
    rw [hm2]
    refine List.Nodup.map_on ?_ hone
    intro x hx y hy hxy
    obtain ⟨r, hr, rfl⟩ := List.mem_map.1 hx
    obtain ⟨r', hr', rfl⟩ := List.mem_map.1 hy
    simp only [Prod.mk.injEq] at hxy ⊢
    obtain ⟨e1, e2⟩ := hxy
    refine ⟨e1, ?_⟩
    obtain ⟨hg, -, j, -, hj, -⟩ := hrow r hr
    rw [← e1] at e2
    have hndo : (orig r.snap).order.Nodup :=
      ((horig _ hg).1.2.nodup_iff).2 List.nodup_range
    obtain ⟨hlt, -⟩ := List.getElem?_eq_some_iff.1 hj
    exact (List.getElem?_inj hlt hndo).1 e2
  · intro hb h0' hfit metas' hm' s hsm hz1 hz2 hmax hdec hlow hhigh hgap j m pos v hj hmass hmin hpos
      hv hreg hlo hhi
    have hmm : metas' = metas := by
      obtain ⟨hl, -⟩ := makerMetas_ok file metas hm
      rw [metasOf, hf] at hm'
      simp only [Option.bind_some, hl, Option.some.injEq] at hm'
      exact hm'.symm
    subst hmm
    have hsu : s ∈ snapsUsed st.toSettings metas' := by
      unfold snapsUsed
      rw [(Sim.sortByZ_perm _).mem_iff, List.mem_filter]
      refine ⟨hsm, ?_⟩
      simp [hz1, hz2]
    have h1 := hsrc s hsu
    have hg := hgrp _ _ h1
    obtain ⟨hof, huni, -, hdat⟩ := horig s.index hg
    obtain ⟨hlen, hsort, ht, hcuts, hval⟩ := hdat _ h1
    obtain ⟨halos, hl, hall⟩ := considered (orig s.index) hof.2 _ hlen hsort ht hcuts hval
      st.toSettings hdec hlow hhigh hgap
    obtain ⟨k, m', hk, hm1, hiff⟩ := hall j hj
    have hmm' := huni k j hk "mass" _ _ hmass hm1
    subst hmm'
    obtain ⟨halo, e1, e2, e3⟩ := hiff.1 hmin
    have hpe : halo.pos = pos := by
      funext a
      exact huni k j hk _ _ _ (e3 a) (hpos a)
    obtain ⟨r, hr, r1, r2, r3⟩ := C36_complete_partial st sky metas' (sourceOf file) bins c hbuild
      hshape hb h0' hfit s hsu hmax halos hl k halo e1 v (hpe ▸ hv) hreg hlo hhi
    refine ⟨r, hr, r1, by rw [r2]; exact hk, ?_, r3⟩
    obtain ⟨s', -, f1, halo', f2, f3, -⟩ := C36_image st sky metas' (sourceOf file) bins c hbuild hshape
      r hr
    rw [f3, ← e2]
    have h5 := loaded_get hl e1
    rw [← f1, r1, r2, h5] at f2
    cases f2
    rfl

end History

/-- The hypotheses of `C118_sphere_partial` are met: a light sphere of the formatted example in a box
that contains it, with the two raw halos whose images are in the shells of their snapshots. -/
example : (match sphereFrom (srcFile [7, 9]) { exSphere .sphere 1 20 with box := 40 } exSky [0, 3] with
    | some (.ok c) =>
      decide (c.rows.map (fun r : Row ℚ => (r.snap, r.index, r.mass, ![r.posX, r.posY, r.posZ])) =
        [(9, 1, 1, ![30/13, 40/13, 120/13]), (7, 0, 3/2, ![42/13, 56/13, 168/13])])
    | _ => false) = true := by decide +kernel

end Verif.LC
