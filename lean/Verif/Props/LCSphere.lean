import Verif.Lemmas.LightCone
import Verif.Props.LightCone
import Verif.Spec.LCSphere

/-!
# Light spheres (C36): images, region, completeness, order
-/

set_option linter.unusedSectionVars false

namespace Verif.LC

open Verif.Sim (Err SnapMeta sortByZ getMassIndex)

variable {K : Type} [Field K] [LinearOrder K] [IsStrictOrderedRing K] [FloorRing K]

/-- The position of an object of a light sphere. -/
def Row.at (r : Row K) : Vec K := ![r.posX, r.posY, r.posZ]

theorem sphereLoop_ok {st : SphereSettings K} {sky : Sky K} {data : ℕ → SnapData K} :
    ∀ {snaps : List (SnapMeta K)} {c c' : Cone K}, sphereLoop st sky data snaps c = .ok c' →
      ∃ parts : List (SnapMeta K × List (Halo K)), parts.map (·.1) = snaps ∧
        (∀ P ∈ parts, loaded st.toSettings (data P.1.index) = .ok P.2) ∧
        c' = ⟨c.rows ++ parts.flatMap (fun P => sphereRows st sky P.1 P.2),
              addIndex c.tab (parts.flatMap (fun P => sphereRows st sky P.1 P.2))⟩ := by
  intro snaps
  induction snaps with
  | nil =>
    intro c c' h
    simp only [sphereLoop, Except.ok.injEq] at h
    subst h
    exact ⟨[], rfl, by simp, by simp [addIndex_nil]⟩
  | cons s rest ih =>
    intro c c' h
    rw [sphereLoop] at h
    rcases hl : loaded st.toSettings (data s.index) with e | halos
    · rw [hl] at h; cases h
    rw [hl] at h
    simp only at h
    obtain ⟨parts, h1, h2, h3⟩ := ih h
    refine ⟨(s, halos) :: parts, by simp [h1], ?_, ?_⟩
    · intro P hP
      rcases List.mem_cons.1 hP with rfl | hP
      · exact hl
      · exact h2 P hP
    · rw [h3]
      simp only [List.flatMap_cons, Cone.append, List.append_assoc, addIndex_append]

theorem buildSphere_ok {st : SphereSettings K} {sky : Sky K} {metas : List (SnapMeta K)}
    {data : ℕ → SnapData K} {bins : List K} {c : Cone K}
    (h : buildSphere st sky metas data bins = .ok c) :
    ∃ parts : List (SnapMeta K × List (Halo K)), parts.map (·.1) = snapsUsed st.toSettings metas ∧
      (∀ P ∈ parts, loaded st.toSettings (data P.1.index) = .ok P.2) ∧
      c.rows = parts.flatMap (fun P => sphereRows st sky P.1 P.2) ∧
      c.tab = addIndex (bins.map (fun z => (z, 0)))
        (parts.flatMap (fun P => sphereRows st sky P.1 P.2)) := by
  obtain ⟨parts, h1, h2, h3⟩ := sphereLoop_ok h
  subst h3
  exact ⟨parts, h1, h2, by simp, by simp⟩

theorem mem_sphereSel {st : SphereSettings K} {sky : Sky K} {s : SnapMeta K}
    {halos : List (Halo K)} {c : Cand K} :
    c ∈ sphereSel st sky s halos ↔ (∃ halo, halos[c.j]? = some halo ∧
        c.r = spherePos st sky halo.pos ∧ c.d = st.root (sumSq c.r)) ∧
      sphereLo st s ^ 2 ≤ sumSq c.r ∧ sumSq c.r < sphereHi st s ^ 2 ∧
      inShape st.shape c.r = true := by
  unfold sphereSel sphereCands
  rw [List.mem_insertionSort, List.mem_filter, List.mem_map]
  simp only [Bool.and_eq_true, decide_eq_true_eq, and_assoc]
  constructor
  · rintro ⟨⟨q, hq, rfl⟩, h⟩
    exact ⟨⟨q.1, List.mem_zipIdx_iff_getElem?.1 hq, rfl, rfl⟩, h⟩
  · rintro ⟨⟨halo, hq, hr, hd⟩, h⟩
    refine ⟨⟨(halo, c.j), List.mem_zipIdx_iff_getElem?.2 hq, ?_⟩, h⟩
    cases c
    simp only at hr hd
    subst hr hd
    rfl

theorem mem_sphereRows {st : SphereSettings K} {sky : Sky K} {s : SnapMeta K}
    {halos : List (Halo K)} {r : Row K} (h : r ∈ sphereRows st sky s halos) :
    ∃ (n : ℕ) (halo : Halo K), halos[n]? = some halo ∧ r.snap = s.index ∧ r.index = n ∧
      r.mass = halo.mass ∧ r.at = spherePos st sky halo.pos ∧
      sphereLo st s ^ 2 ≤ sumSq r.at ∧ sumSq r.at < sphereHi st s ^ 2 ∧
      inShape st.shape r.at = true ∧ r.redshift = st.assignZ (st.root (sumSq r.at)) ∧
      r.ra = pymod (st.arctan2 r.posY r.posX) (2 * st.pi) ∧
      r.dec = st.pi / 2 - st.arccos (r.posZ / st.root (sumSq r.at)) := by
  unfold sphereRows at h
  obtain ⟨c, hc, rfl⟩ := List.mem_map.1 h
  obtain ⟨⟨halo, h1, h2, h3⟩, h4, h5, h6⟩ := mem_sphereSel.1 hc
  have hlt : c.j < halos.length := (List.getElem?_eq_some_iff.1 h1).1
  have hat : (sphereRow st s.index halos c).at = c.r := by
    funext a
    fin_cases a <;> rfl
  refine ⟨c.j, halo, h1, rfl, ?_, ?_, ?_, ?_, ?_, ?_, ?_, rfl, ?_⟩
  · exact Nat.mod_eq_of_lt hlt
  · show ((halos.map (·.mass))[c.j % halos.length]?).getD 0 = halo.mass
    rw [Nat.mod_eq_of_lt hlt, List.getElem?_map, h1]
    rfl
  · rw [hat, h2]
  · rw [hat]; exact h4
  · rw [hat]; exact h5
  · rw [hat]; exact h6
  · rw [hat]
    show st.assignZ c.d = _
    rw [h3]
  · rw [hat, ← h3]
    rfl

/-- The cube, seen from the observer, to which halos are moved. -/
def InCube (st : SphereSettings K) (v : Vec K) : Prop :=
  match st.shape with
  | .eighth => ∀ a, 0 ≤ v a ∧ v a < st.box
  | _ => ∀ a, -(st.box / 2) ≤ v a ∧ v a < st.box / 2

theorem spherePos_copy (st : SphereSettings K) (sky : Sky K) (hs : st.shape ≠ .other) (q : Vec K) :
    Spec.IsCopy st.box sky.flips sky.start q (spherePos st sky q) := by
  choose k hk using fun a => pymod_eq (q a * (sky.flips a : K)) st.box
  rcases hsh : st.shape with - | - | - | - | -
  · choose l hl using fun a => pymod_eq (pymod (q a * (sky.flips a : K)) st.box - sky.start a
      + st.box / 2) st.box
    refine ⟨fun a => k a + l a, ?_⟩
    funext a
    simp only [spherePos, hsh]
    rw [hl, hk]
    push_cast
    ring
  · choose l hl using fun a => pymod_eq (pymod (q a * (sky.flips a : K)) st.box - sky.start a
      + st.box / 2) st.box
    refine ⟨fun a => k a + l a, ?_⟩
    funext a
    simp only [spherePos, hsh]
    rw [hl, hk]
    push_cast
    ring
  · choose l hl using fun a => pymod_eq (pymod (q a * (sky.flips a : K)) st.box - sky.start a
      + st.box / 2) st.box
    refine ⟨fun a => k a + l a, ?_⟩
    funext a
    simp only [spherePos, hsh]
    rw [hl, hk]
    push_cast
    ring
  · choose l hl using fun a => pymod_eq (pymod (q a * (sky.flips a : K)) st.box - sky.start a
      + st.box) st.box
    refine ⟨fun a => k a + l a + 1, ?_⟩
    funext a
    simp only [spherePos, hsh]
    rw [hl, hk]
    push_cast
    ring
  · exact absurd hsh hs

theorem spherePos_cube (st : SphereSettings K) (sky : Sky K) (hs : st.shape ≠ .other)
    (hb : 0 < st.box) (q : Vec K) : InCube st (spherePos st sky q) := by
  unfold InCube spherePos
  rcases hsh : st.shape with - | - | - | - | -
  · intro a
    have h1 := pymod_nonneg hb (pymod (q a * (sky.flips a : K)) st.box - sky.start a + st.box / 2)
    have h2 := pymod_lt hb (pymod (q a * (sky.flips a : K)) st.box - sky.start a + st.box / 2)
    constructor
    · simp only; linarith
    · simp only; linarith
  · intro a
    have h1 := pymod_nonneg hb (pymod (q a * (sky.flips a : K)) st.box - sky.start a + st.box / 2)
    have h2 := pymod_lt hb (pymod (q a * (sky.flips a : K)) st.box - sky.start a + st.box / 2)
    constructor
    · simp only; linarith
    · simp only; linarith
  · intro a
    have h1 := pymod_nonneg hb (pymod (q a * (sky.flips a : K)) st.box - sky.start a + st.box / 2)
    have h2 := pymod_lt hb (pymod (q a * (sky.flips a : K)) st.box - sky.start a + st.box / 2)
    constructor
    · simp only; linarith
    · simp only; linarith
  · intro a
    exact ⟨pymod_nonneg hb _, pymod_lt hb _⟩
  · exact absurd hsh hs

/-- Two numbers that differ by whole boxes and lie in one interval of the length of the box are
equal. -/
theorem eq_of_window {b x y lo : K} (m : ℤ) (h : y = x + b * m) (hx : lo ≤ x ∧ x < lo + b)
    (hy : lo ≤ y ∧ y < lo + b) : x = y := by
  have hb : 0 < b := by linarith [hx.1, hx.2]
  have h1 : pymod (x - lo) b = x - lo :=
    pymod_unique hb 0 (by simp) (by linarith [hx.1]) (by linarith [hx.2])
  have h2 : pymod (x - lo) b = y - lo :=
    pymod_unique hb m (by rw [h]; ring) (by linarith [hy.1]) (by linarith [hy.2])
  linarith [h1.symm.trans h2]

/-- Only one image of a halo is in the cube. -/
theorem cube_unique {st : SphereSettings K} {sky : Sky K} {q v w : Vec K}
    (hv : Spec.IsCopy st.box sky.flips sky.start q v)
    (hw : Spec.IsCopy st.box sky.flips sky.start q w) (hcv : InCube st v) (hcw : InCube st w) :
    v = w := by
  obtain ⟨k, rfl⟩ := hv
  obtain ⟨l, rfl⟩ := hw
  unfold InCube at hcv hcw
  funext a
  by_cases hsh : st.shape = .eighth
  · rw [hsh] at hcv hcw
    refine eq_of_window (b := st.box) (lo := 0) (l a - k a) (by push_cast; ring) ?_ ?_
    · simpa using hcv a
    · simpa using hcw a
  · have h1 : -(st.box / 2) ≤ (sky.flips a : K) * q a - sky.start a + st.box * k a ∧
        (sky.flips a : K) * q a - sky.start a + st.box * k a < st.box / 2 := by
      cases h : st.shape <;> rw [h] at hcv hsh
      · exact hcv a
      · exact hcv a
      · exact hcv a
      · exact absurd rfl hsh
      · exact hcv a
    have h2 : -(st.box / 2) ≤ (sky.flips a : K) * q a - sky.start a + st.box * l a ∧
        (sky.flips a : K) * q a - sky.start a + st.box * l a < st.box / 2 := by
      cases h : st.shape <;> rw [h] at hcw hsh
      · exact hcw a
      · exact hcw a
      · exact hcw a
      · exact absurd rfl hsh
      · exact hcw a
    refine eq_of_window (b := st.box) (lo := -(st.box / 2)) (l a - k a) (by push_cast; ring) ?_ ?_
    · exact ⟨h1.1, by linarith [h1.2]⟩
    · exact ⟨h2.1, by linarith [h2.2]⟩

theorem sphere_part {st : SphereSettings K} {sky : Sky K} {metas : List (SnapMeta K)}
    {data : ℕ → SnapData K} {bins : List K} {c : Cone K}
    (h : buildSphere st sky metas data bins = .ok c) (r : Row K) (hr : r ∈ c.rows) :
    ∃ s ∈ snapsUsed st.toSettings metas, ∃ halos, loaded st.toSettings (data s.index) = .ok halos ∧
      r ∈ sphereRows st sky s halos := by
  obtain ⟨parts, hs, hl, hrows, -⟩ := buildSphere_ok h
  rw [hrows] at hr
  obtain ⟨P, hP, hr⟩ := List.mem_flatMap.1 hr
  refine ⟨P.1, ?_, P.2, hl P hP, hr⟩
  rw [← hs]
  exact List.mem_map.2 ⟨P, hP, rfl⟩

theorem loaded_get {st : Settings K} {d : SnapData K} {halos : List (Halo K)}
    (hl : loaded st d = .ok halos) {n : ℕ} {halo : Halo K} (hn : halos[n]? = some halo) :
    d.halos[n]? = some halo := by
  unfold loaded at hl
  rcases hm : getMassIndex d.cuts st.h st.minMass false with e | mi
  · rw [hm] at hl; cases hl
  rw [hm] at hl
  simp only [Except.ok.injEq] at hl
  subst hl
  rw [List.getElem?_take] at hn
  split at hn
  · rw [List.getElem?_take] at hn
    split at hn
    · exact hn
    · cases hn
  · cases hn

/-- **C36, images.** Every object is linked to a halo of the catalogue of its snapshot, has its
mass, and its position is a periodic image of the halo's position. -/
theorem C36_image (st : SphereSettings K) (sky : Sky K) (metas : List (SnapMeta K))
    (data : ℕ → SnapData K) (bins : List K) (c : Cone K)
    (h : buildSphere st sky metas data bins = .ok c) (hs : st.shape ≠ .other)
    (r : Row K) (hr : r ∈ c.rows) :
    ∃ s ∈ metas, r.snap = s.index ∧ ∃ halo, (data s.index).halos[r.index]? = some halo ∧
      r.mass = halo.mass ∧
      Spec.IsCopy st.box sky.flips sky.start halo.pos ![r.posX, r.posY, r.posZ] := by
  obtain ⟨s, hsu, halos, hl, hr⟩ := sphere_part h r hr
  obtain ⟨n, halo, h1, h2, h3, h4, h5, -⟩ := mem_sphereRows hr
  refine ⟨s, (snapsUsed_mem hsu).1, h2, halo, ?_, h4, ?_⟩
  · rw [h3]
    exact loaded_get hl h1
  · have := spherePos_copy st sky hs halo.pos
    rw [← h5] at this
    exact this

/-- **C36, nearest image.** For full, half and quarter spheres no other image of the halo is nearer
to the observer; for eighths the object is the image in the box at the observer's corner. -/
theorem C36_nearest (st : SphereSettings K) (sky : Sky K) (metas : List (SnapMeta K))
    (data : ℕ → SnapData K) (bins : List K) (c : Cone K)
    (h : buildSphere st sky metas data bins = .ok c) (hs : st.shape ≠ .other) (hb : 0 < st.box)
    (r : Row K) (hr : r ∈ c.rows) :
    (st.shape ≠ .eighth → ∀ v : Vec K,
      (∀ s ∈ metas, r.snap = s.index → ∃ halo, (data s.index).halos[r.index]? = some halo ∧
        Spec.IsCopy st.box sky.flips sky.start halo.pos v) →
      Spec.dist2 ![r.posX, r.posY, r.posZ] ≤ Spec.dist2 v) ∧
    (st.shape = .eighth → (0 ≤ r.posX ∧ r.posX < st.box) ∧ (0 ≤ r.posY ∧ r.posY < st.box) ∧
      (0 ≤ r.posZ ∧ r.posZ < st.box)) := by
  obtain ⟨s, hsu, halos, hl, hr⟩ := sphere_part h r hr
  obtain ⟨n, halo, h1, h2, h3, h4, h5, -⟩ := mem_sphereRows hr
  have hcube := spherePos_cube st sky hs hb halo.pos
  rw [← h5] at hcube
  have hcopy := spherePos_copy st sky hs halo.pos
  rw [← h5] at hcopy
  constructor
  · intro he v hv
    obtain ⟨halo', hh, hv⟩ := hv s (snapsUsed_mem hsu).1 h2
    rw [h3, loaded_get hl h1] at hh
    cases hh
    have hc : ∀ a, -(st.box / 2) ≤ r.at a ∧ r.at a < st.box / 2 := by
      unfold InCube at hcube
      cases hsh : st.shape <;> rw [hsh] at hcube he
      · exact hcube
      · exact hcube
      · exact hcube
      · exact absurd rfl he
      · exact hcube
    have hle : ∀ a, r.at a ^ 2 ≤ v a ^ 2 := by
      intro a
      obtain ⟨k, hk⟩ := hcopy
      obtain ⟨l, rfl⟩ := hv
      have e1 : r.at a = (sky.flips a : K) * halo.pos a - sky.start a + st.box * k a :=
        congrFun hk a
      obtain ⟨b1, b2⟩ := hc a
      rw [sq_le_sq]
      by_cases hkl : l a = k a
      · simp only [hkl, e1, le_refl]
      · have e2 : (sky.flips a : K) * halo.pos a - sky.start a + st.box * l a =
            r.at a + st.box * ((l a - k a : ℤ) : K) := by
          rw [e1]; push_cast; ring
        simp only [e2]
        generalize hx : r.at a = x at *
        have habs : |x| ≤ st.box / 2 := abs_le.2 ⟨b1, b2.le⟩
        have hone : (1 : K) ≤ |((l a - k a : ℤ) : K)| := by
          have : (1 : ℤ) ≤ |l a - k a| := Int.one_le_abs (sub_ne_zero.2 hkl)
          exact_mod_cast this
        have hbm : st.box ≤ |st.box * ((l a - k a : ℤ) : K)| := by
          rw [abs_mul, abs_of_pos hb]
          nlinarith
        have htri : |st.box * ((l a - k a : ℤ) : K)| ≤
            |x + st.box * ((l a - k a : ℤ) : K)| + |x| := by
          have := abs_sub (x + st.box * ((l a - k a : ℤ) : K)) x
          simpa using this
        linarith
    have := hle 0
    have := hle 1
    have := hle 2
    show r.at 0 ^ 2 + r.at 1 ^ 2 + r.at 2 ^ 2 ≤ v 0 ^ 2 + v 1 ^ 2 + v 2 ^ 2
    linarith
  · intro he
    unfold InCube at hcube
    rw [he] at hcube
    exact ⟨hcube 0, hcube 1, hcube 2⟩

theorem inShape_iff {st : SphereSettings K} {v : Vec K} (hc : InCube st v) :
    inShape st.shape v = true ↔ Spec.Region st.shape v := by
  unfold InCube at hc
  cases hsh : st.shape <;> rw [hsh] at hc <;> simp only [inShape, Spec.Region]
  · simp
  · simp only [Bool.and_eq_true, decide_eq_true_eq]
    exact And.comm
  · simp only [true_iff]
    exact fun a => (hc a).1
  · simp

/-- **C36, region.** Every object is in the requested shell, in the shell of its snapshot, and in
the requested part of the sphere. -/
theorem C36_region (st : SphereSettings K) (sky : Sky K) (metas : List (SnapMeta K))
    (data : ℕ → SnapData K) (bins : List K) (c : Cone K) (D : K → K)
    (h : buildSphere st sky metas data bins = .ok c) (hs : st.shape ≠ .other) (hb : 0 < st.box)
    (hcons : Consistent st.toSettings metas D) (hD : ∀ z, 0 ≤ D z)
    (r : Row K) (hr : r ∈ c.rows) :
    D st.zlo ^ 2 ≤ Spec.dist2 ![r.posX, r.posY, r.posZ] ∧
    Spec.dist2 ![r.posX, r.posY, r.posZ] < D st.zhi ^ 2 ∧
    (∃ s ∈ metas, r.snap = s.index ∧ D s.zmin ^ 2 ≤ Spec.dist2 ![r.posX, r.posY, r.posZ] ∧
      Spec.dist2 ![r.posX, r.posY, r.posZ] < D s.zmax ^ 2) ∧
    Spec.Region st.shape ![r.posX, r.posY, r.posZ] := by
  obtain ⟨s, hsu, halos, hl, hr⟩ := sphere_part h r hr
  obtain ⟨n, halo, h1, h2, h3, h4, h5, h6, h7, h8, -⟩ := mem_sphereRows hr
  have hsm := (snapsUsed_mem hsu).1
  have hcube := spherePos_cube st sky hs hb halo.pos
  rw [← h5] at hcube
  unfold sphereLo at h6
  unfold sphereHi at h7
  rw [hcons.dmin s hsm, hcons.dzmin] at h6
  rw [hcons.dmax s hsm, hcons.dzmax] at h7
  have hm : 0 ≤ min (D s.zmax) (D st.zhi) := le_min (hD _) (hD _)
  refine ⟨?_, ?_, ⟨s, hsm, h2, ?_, ?_⟩, (inShape_iff hcube).1 h8⟩
  · exact (pow_le_pow_left₀ (hD _) (le_max_right _ _) 2).trans h6
  · exact h7.trans_le (pow_le_pow_left₀ hm (min_le_right _ _) 2)
  · exact (pow_le_pow_left₀ (hD _) (le_max_left _ _) 2).trans h6
  · exact h7.trans_le (pow_le_pow_left₀ hm (min_le_left _ _) 2)

theorem sphereSel_nodup (st : SphereSettings K) (sky : Sky K) (s : SnapMeta K)
    (halos : List (Halo K)) : ((sphereSel st sky s halos).map (·.j)).Nodup := by
  unfold sphereSel
  refine ((List.perm_insertionSort _ _).map _).nodup_iff.2 ?_
  refine List.Nodup.sublist (List.filter_sublist.map _) ?_
  unfold sphereCands
  rw [List.map_map]
  have : ((fun c : Cand K => c.j) ∘ fun q : Halo K × ℕ =>
      (⟨spherePos st sky q.1.pos, q.2, st.root (sumSq (spherePos st sky q.1.pos))⟩ : Cand K)) =
      fun q => q.2 := rfl
  simp only
  rw [this, List.zipIdx_map_snd]
  exact List.nodup_range'

theorem snapsUsed_nodup {st : Settings K} {metas : List (SnapMeta K)}
    (hidx : (metas.map (·.index)).Nodup) : ((snapsUsed st metas).map (·.index)).Nodup := by
  unfold snapsUsed
  refine ((Sim.sortByZ_perm _).map _).nodup_iff.2 ?_
  exact hidx.sublist (List.filter_sublist.map _)

/-- **C36, once.** Each halo of a snapshot occurs at most once. -/
theorem C36_once (st : SphereSettings K) (sky : Sky K) (metas : List (SnapMeta K))
    (data : ℕ → SnapData K) (bins : List K) (c : Cone K)
    (h : buildSphere st sky metas data bins = .ok c) (hidx : (metas.map (·.index)).Nodup) :
    (c.rows.map (fun r => (r.snap, r.index))).Nodup := by
  obtain ⟨parts, hs, hl, hrows, -⟩ := buildSphere_ok h
  rw [hrows, List.map_flatMap, List.nodup_flatMap]
  constructor
  · intro P hP
    unfold sphereRows
    rw [List.map_map]
    refine List.Nodup.map_on ?_ (List.Nodup.of_map _ (sphereSel_nodup st sky P.1 P.2))
    intro x hx y hy hxy
    refine List.inj_on_of_nodup_map (sphereSel_nodup st sky P.1 P.2) hx hy ?_
    obtain ⟨⟨h1, e1, -⟩, -⟩ := mem_sphereSel.1 hx
    obtain ⟨⟨h2, e2, -⟩, -⟩ := mem_sphereSel.1 hy
    have l1 := (List.getElem?_eq_some_iff.1 e1).1
    have l2 := (List.getElem?_eq_some_iff.1 e2).1
    have := congrArg Prod.snd hxy
    simp only [Function.comp, sphereRow, Nat.mod_eq_of_lt l1, Nat.mod_eq_of_lt l2] at this
    exact this
  · have hnd : (parts.map (fun P => P.1.index)).Nodup := by
      have e : parts.map (fun P => P.1.index) = (snapsUsed st.toSettings metas).map (·.index) := by
        rw [← hs, List.map_map]
        rfl
      rw [e]
      exact snapsUsed_nodup hidx
    rw [List.nodup_iff_pairwise_ne, List.pairwise_map] at hnd
    refine hnd.imp ?_
    intro P Q hPQ x hx hy
    obtain ⟨r1, hr1, rfl⟩ := List.mem_map.1 hx
    obtain ⟨r2, hr2, e⟩ := List.mem_map.1 hy
    obtain ⟨-, -, -, e1, -⟩ := mem_sphereRows hr1
    obtain ⟨-, -, -, e2, -⟩ := mem_sphereRows hr2
    have := congrArg Prod.fst e
    simp only at this
    exact hPQ (by rw [← e1, ← e2, this])

/-- **C36, completeness.** Of the images of a halo in the requested shell and region, the light
sphere contains exactly those inside the cube around (for eighths: at the corner of) the observer
with the edge of the simulation box. -/
theorem C36_iff (st : SphereSettings K) (sky : Sky K) (metas : List (SnapMeta K))
    (data : ℕ → SnapData K) (bins : List K) (c : Cone K)
    (h : buildSphere st sky metas data bins = .ok c) (hs : st.shape ≠ .other) (hb : 0 < st.box)
    (s : SnapMeta K) (hsu : s ∈ snapsUsed st.toSettings metas) (halos : List (Halo K))
    (hl : loaded st.toSettings (data s.index) = .ok halos) (n : ℕ) (halo : Halo K)
    (hn : halos[n]? = some halo) (v : Vec K)
    (hv : Spec.IsCopy st.box sky.flips sky.start halo.pos v) (hreg : Spec.Region st.shape v)
    (hlo : max s.dmin st.dzmin ^ 2 ≤ Spec.dist2 v) (hhi : Spec.dist2 v < min s.dmax st.dzmax ^ 2) :
    (∃ r ∈ c.rows, r.snap = s.index ∧ r.index = n ∧ ![r.posX, r.posY, r.posZ] = v) ↔
      InCube st v := by
  constructor
  · rintro ⟨r, hr, e1, e2, rfl⟩
    obtain ⟨s', hsu', halos', hl', hr⟩ := sphere_part h r hr
    obtain ⟨n', halo', h1, h2, h3, h4, h5, -⟩ := mem_sphereRows hr
    have := spherePos_cube st sky hs hb halo'.pos
    rw [← h5] at this
    exact this
  · intro hc
    have hcopy := spherePos_copy st sky hs halo.pos
    have hcube := spherePos_cube st sky hs hb halo.pos
    have hvq := cube_unique hv hcopy hc hcube
    obtain ⟨parts, hps, hpl, hrows, -⟩ := buildSphere_ok h
    rw [← hps] at hsu
    obtain ⟨P, hP, rfl⟩ := List.mem_map.1 hsu
    have hlP := hpl P hP
    rw [hl] at hlP
    cases hlP
    have hlt : n < P.2.length := (List.getElem?_eq_some_iff.1 hn).1
    let cd : Cand K := ⟨v, n, st.root (sumSq v)⟩
    have hcd : cd ∈ sphereSel st sky P.1 P.2 :=
      mem_sphereSel.2 ⟨⟨halo, hn, hvq, rfl⟩, hlo, hhi, (inShape_iff hc).2 hreg⟩
    refine ⟨sphereRow st P.1.index P.2 cd, ?_, rfl, Nat.mod_eq_of_lt hlt, ?_⟩
    · rw [hrows]
      exact List.mem_flatMap.2 ⟨P, hP, List.mem_map.2 ⟨cd, hcd, rfl⟩⟩
    · funext a
      fin_cases a <;> rfl

/-- **C36, completeness.** If the requested sphere fits into the box in the units of the positions
(twice the radius, or for eighths the radius, at most the edge), then every image of a halo in the
shell and region is an object of the light sphere. -/
theorem C36_complete_partial (st : SphereSettings K) (sky : Sky K) (metas : List (SnapMeta K))
    (data : ℕ → SnapData K) (bins : List K) (c : Cone K)
    (h : buildSphere st sky metas data bins = .ok c) (hs : st.shape ≠ .other) (hb : 0 < st.box)
    (h0 : 0 ≤ st.dzmax)
    (hfit : if st.shape = .eighth then st.dzmax ≤ st.box else 2 * st.dzmax ≤ st.box)
    (s : SnapMeta K) (hsu : s ∈ snapsUsed st.toSettings metas) (hmax : 0 ≤ s.dmax)
    (halos : List (Halo K))
    (hl : loaded st.toSettings (data s.index) = .ok halos) (n : ℕ) (halo : Halo K)
    (hn : halos[n]? = some halo) (v : Vec K)
    (hv : Spec.IsCopy st.box sky.flips sky.start halo.pos v) (hreg : Spec.Region st.shape v)
    (hlo : max s.dmin st.dzmin ^ 2 ≤ Spec.dist2 v) (hhi : Spec.dist2 v < min s.dmax st.dzmax ^ 2) :
    ∃ r ∈ c.rows, r.snap = s.index ∧ r.index = n ∧ ![r.posX, r.posY, r.posZ] = v := by
  refine (C36_iff st sky metas data bins c h hs hb s hsu halos hl n halo hn v hv hreg hlo
    hhi).2 ?_
  have hd : Spec.dist2 v < st.dzmax ^ 2 :=
    hhi.trans_le (pow_le_pow_left₀ (le_min hmax h0) (min_le_right _ _) 2)
  have habs : ∀ a, |v a| < st.dzmax := by
    intro a
    refine abs_lt_of_sq_lt_sq ?_ h0
    refine lt_of_le_of_lt ?_ hd
    unfold Spec.dist2
    have h0 := sq_nonneg (v 0)
    have h1 := sq_nonneg (v 1)
    have h2 := sq_nonneg (v 2)
    fin_cases a
    · show v 0 ^ 2 ≤ _
      linarith
    · show v 1 ^ 2 ≤ _
      linarith
    · show v 2 ^ 2 ≤ _
      linarith
  unfold InCube
  cases hsh : st.shape <;> rw [hsh] at hfit hreg <;> simp only [Spec.Region] at hreg
  · intro a
    have := abs_lt.1 (habs a)
    simp only [reduceCtorEq, if_false] at hfit
    constructor <;> linarith [this.1, this.2]
  · intro a
    have := abs_lt.1 (habs a)
    simp only [reduceCtorEq, if_false] at hfit
    constructor <;> linarith [this.1, this.2]
  · intro a
    have := abs_lt.1 (habs a)
    simp only [reduceCtorEq, if_false] at hfit
    constructor <;> linarith [this.1, this.2]
  · intro a
    simp only [if_true] at hfit
    exact ⟨hreg a, (le_abs_self _).trans_lt ((habs a).trans_le hfit)⟩

/-- **C36, refusal (fails).** The check compares a radius in Mpc/h with a box edge in Mpc: a request
is accepted exactly if the radius times `h` fits into the box.  For `h < 1` spheres that do not fit
are accepted. -/
theorem C36_accepts (st : SphereSettings K) (assignD : K → K) (hh : 0 < st.h) :
    sphereCheck st assignD = .ok () ↔ st.shape ≠ .other ∧ st.zlo ≤ st.zhi ∧
      (if st.shape = .eighth then assignD st.zhi * st.h ≤ st.box
        else 2 * (assignD st.zhi * st.h) ≤ st.box) := by
  unfold sphereCheck
  by_cases ho : st.shape = .other
  · simp [ho]
  rw [if_neg ho]
  by_cases hz : st.zhi < st.zlo
  · simp [hz, not_le.2 hz]
  rw [if_neg hz]
  have hlim : st.limit < assignD st.zhi ↔ ¬ (if st.shape = .eighth then
      assignD st.zhi * st.h ≤ st.box else 2 * (assignD st.zhi * st.h) ≤ st.box) := by
    unfold SphereSettings.limit
    cases hsh : st.shape
    · simp only [reduceCtorEq, if_false, not_le]
      rw [div_div, div_lt_iff₀ (by positivity)]
      constructor <;> intro h <;> linarith
    · simp only [reduceCtorEq, if_false, not_le]
      rw [div_div, div_lt_iff₀ (by positivity)]
      constructor <;> intro h <;> linarith
    · simp only [reduceCtorEq, if_false, not_le]
      rw [div_div, div_lt_iff₀ (by positivity)]
      constructor <;> intro h <;> linarith
    · simp only [if_true, not_le]
      rw [div_lt_iff₀ hh]
    · exact absurd hsh ho
  by_cases hf : st.limit < assignD st.zhi
  · rw [if_pos hf]
    have := hlim.1 hf
    simp [this]
  · rw [if_neg hf]
    have := not_not.1 (fun h => hf (hlim.2 h))
    simp only [true_iff]
    exact ⟨ho, not_lt.1 hz, this⟩

/-- **C36, missing images.** An image with a coordinate of at least half the box is in no full,
half or quarter sphere. -/
theorem C36_misses (st : SphereSettings K) (sky : Sky K) (metas : List (SnapMeta K))
    (data : ℕ → SnapData K) (bins : List K) (c : Cone K)
    (h : buildSphere st sky metas data bins = .ok c) (hs : st.shape ≠ .other)
    (he : st.shape ≠ .eighth) (hb : 0 < st.box) (v : Vec K) (a : Fin 3) (ha : st.box / 2 ≤ v a) :
    ∀ r ∈ c.rows, ![r.posX, r.posY, r.posZ] ≠ v := by
  rintro r hr rfl
  obtain ⟨s', hsu', halos', hl', hr⟩ := sphere_part h r hr
  obtain ⟨n', halo', h1, h2, h3, h4, h5, -⟩ := mem_sphereRows hr
  have hcube := spherePos_cube st sky hs hb halo'.pos
  rw [← h5] at hcube
  unfold InCube at hcube
  have : r.at a < st.box / 2 := by
    cases hsh : st.shape <;> rw [hsh] at hcube he
    · exact (hcube a).2
    · exact (hcube a).2
    · exact (hcube a).2
    · exact absurd rfl he
    · exact (hcube a).2
  exact absurd ha (not_le.2 this)

theorem snapsUsed_order {st : Settings K} {metas : List (SnapMeta K)} {D : K → K}
    (hcons : Consistent st metas D) :
    (snapsUsed st metas).Pairwise (fun a b => a.redshift < b.redshift) := by
  have h1 : (snapsUsed st metas).Pairwise (fun a b => a.redshift ≤ b.redshift) :=
    Sim.sortByZ_sorted _
  have h2 : ((snapsUsed st metas).map (·.redshift)).Nodup := by
    unfold snapsUsed
    refine ((Sim.sortByZ_perm _).map _).nodup_iff.2 ?_
    exact hcons.distinct.sublist (List.filter_sublist.map _)
  rw [List.nodup_iff_pairwise_ne, List.pairwise_map] at h2
  exact (h1.and h2).imp (fun h => lt_of_le_of_ne h.1 h.2)

/-- **C36, order.** The objects are in order of distance, and the redshift table counts the
objects up to each redshift. -/
theorem C36_sorted (st : SphereSettings K) (sky : Sky K) (metas : List (SnapMeta K))
    (data : ℕ → SnapData K) (bins : List K) (c : Cone K) (D : K → K)
    (h : buildSphere st sky metas data bins = .ok c) (hcons : Consistent st.toSettings metas D)
    (hD : ∀ z, 0 ≤ D z)
    (hinj : ∀ a b : K, 0 ≤ a → 0 ≤ b → st.root a ≤ st.root b → a ≤ b) :
    c.rows.Pairwise (fun a b =>
      Spec.dist2 ![a.posX, a.posY, a.posZ] ≤ Spec.dist2 ![b.posX, b.posY, b.posZ]) ∧
    (∀ (i : ℕ) (z : K), 0 < i → bins[i]? = some z →
      c.tab[i]? = some (z, (c.rows.filter (fun r => decide (r.redshift ≤ z))).length)) := by
  obtain ⟨parts, hs, hl, hrows, htab⟩ := buildSphere_ok h
  constructor
  · rw [hrows, List.pairwise_flatMap]
    constructor
    · intro P hP
      unfold sphereRows
      rw [List.pairwise_map]
      have hso : (sphereSel st sky P.1 P.2).Pairwise (fun a b => a.d ≤ b.d) :=
        List.pairwise_insertionSort (r := fun a b : Cand K => a.d ≤ b.d) _
      refine hso.imp_of_mem ?_
      intro a b ha hb hab
      obtain ⟨⟨-, -, -, e1⟩, -⟩ := mem_sphereSel.1 ha
      obtain ⟨⟨-, -, -, e2⟩, -⟩ := mem_sphereSel.1 hb
      rw [e1, e2] at hab
      refine hinj _ _ ?_ ?_ hab
      · show 0 ≤ a.r 0 ^ 2 + a.r 1 ^ 2 + a.r 2 ^ 2
        positivity
      · show 0 ≤ b.r 0 ^ 2 + b.r 1 ^ 2 + b.r 2 ^ 2
        positivity
    · have hord := snapsUsed_order hcons
      rw [← hs, List.pairwise_map] at hord
      refine hord.imp_of_mem ?_
      intro P Q hP hQ hPQ x hx y hy
      have hP' : P.1 ∈ metas := by
        refine (snapsUsed_mem (st := st.toSettings) ?_).1
        rw [← hs]; exact List.mem_map.2 ⟨P, hP, rfl⟩
      have hQ' : Q.1 ∈ metas := by
        refine (snapsUsed_mem (st := st.toSettings) ?_).1
        rw [← hs]; exact List.mem_map.2 ⟨Q, hQ, rfl⟩
      obtain ⟨-, -, -, -, -, -, -, -, h7, -⟩ := mem_sphereRows hx
      obtain ⟨-, -, -, -, -, -, -, h6, -⟩ := mem_sphereRows hy
      unfold sphereLo at h6
      unfold sphereHi at h7
      have hz := hcons.apart _ hP' _ hQ' hPQ
      have hd := hcons.mono _ _ hz
      rw [← hcons.dmax _ hP', ← hcons.dmin _ hQ'] at hd
      have e0 : 0 ≤ min P.1.dmax st.dzmax := by
        rw [hcons.dmax _ hP', hcons.dzmax]
        exact le_min (hD _) (hD _)
      have e1 : min P.1.dmax st.dzmax ≤ max Q.1.dmin st.dzmin :=
        (min_le_left _ _).trans (hd.trans (le_max_left _ _))
      exact (h7.trans_le ((pow_le_pow_left₀ e0 e1 2).trans h6)).le
  · rw [htab, ← hrows]
    cases bins with
    | nil => simp
    | cons b rest =>
      intro i z hi hz
      obtain ⟨j, rfl⟩ : ∃ j, i = j + 1 := ⟨i - 1, by omega⟩
      simp only [List.getElem?_cons_succ] at hz
      simp [addIndex, hz, List.countP_eq_length_filter]

end Verif.LC
