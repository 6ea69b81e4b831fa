import Mathlib.Algebra.Field.Rat
import Mathlib.Algebra.Order.Ring.Rat
import Mathlib.Data.Rat.Floor
import Verif.Lemmas.LightCone
import Verif.Lemmas.Sim

/-!
# The objects of a lightcone (C29, C30, C31, C32)
-/

set_option linter.unusedSectionVars false

namespace Verif.LC

open Verif.Sim (Err SnapMeta sortByZ getMassIndex)
open Matrix

variable {K : Type} [Field K] [LinearOrder K] [IsStrictOrderedRing K] [FloorRing K]

/-- The distances in the metadata and settings come from one increasing function of redshift, and
the redshift ranges of the snapshots do not overlap (C16). -/
structure Consistent (st : Settings K) (metas : List (SnapMeta K)) (D : K → K) : Prop where
  mono : ∀ a b, a ≤ b → D a ≤ D b
  dzmin : st.dzmin = D st.zlo
  dzmax : st.dzmax = D st.zhi
  range : st.zlo ≤ st.zhi
  dmin : ∀ s ∈ metas, s.dmin = D s.zmin
  dmax : ∀ s ∈ metas, s.dmax = D s.zmax
  zrange : ∀ s ∈ metas, s.zmin ≤ s.zmax
  apart : ∀ s ∈ metas, ∀ s' ∈ metas, s.redshift < s'.redshift → s.zmax ≤ s'.zmin
  distinct : (metas.map (·.redshift)).Nodup

theorem snapsUsed_mem {st : Settings K} {metas : List (SnapMeta K)} {s : SnapMeta K}
    (h : s ∈ snapsUsed st metas) : s ∈ metas ∧ st.zlo ≤ s.zmax ∧ st.zhi ≥ s.zmin := by
  unfold snapsUsed at h
  have h2 := (Sim.sortByZ_perm _).mem_iff.1 h
  simpa only [List.mem_filter, Bool.and_eq_true, decide_eq_true_eq] using h2

theorem use_nonneg {st : Settings K} {metas : List (SnapMeta K)} {D : K → K}
    (hc : Consistent st metas D) (sky : Sky K) {s : SnapMeta K} (hs : s ∈ snapsUsed st metas) :
    0 ≤ (spanOf st sky s).use := by
  obtain ⟨h1, h2, h3⟩ := snapsUsed_mem hs
  unfold Span.use spanOf
  simp only
  rw [hc.dzmin, hc.dzmax, hc.dmin s h1, hc.dmax s h1]
  have := hc.mono _ _ h2
  have := hc.mono _ _ h3
  have := hc.mono _ _ hc.range
  have := hc.mono _ _ (hc.zrange s h1)
  have : max (D s.zmin) (D st.zlo) ≤ min (D s.zmax) (D st.zhi) :=
    max_le (le_min (by assumption) (by assumption)) (le_min (by assumption) (by assumption))
  linarith

/-- C29: every object of a lightcone is linked to a halo of the catalogue of its snapshot, has its
mass, and its position is a periodic image of that halo's position. -/
theorem C29_image (st : Settings K) (sky : Sky K) (metas : List (SnapMeta K))
    (data : ℕ → SnapData K) (bins : List K) (c : Cone K)
    (h : buildCone st sky metas data bins = .ok c)
    (hlos : sky.losM *ᵥ sky.los = ![1, 0, 0]) (hpa : sky.paM *ᵥ ![1, 0, 0] = ![1, 0, 0])
    (r : Row K) (hr : r ∈ c.rows) :
    ∃ s ∈ metas, r.snap = s.index ∧ ∃ halo, (data s.index).halos[r.index]? = some halo ∧
      r.mass = halo.mass ∧
      Spec.IsImage st.box (sky.paM * sky.losM) sky.flips sky.start halo.pos
        ![r.posZ, r.posX, r.posY] := by
  have ha : Aligned sky := ⟨hlos, hpa⟩
  obtain ⟨parts, hs, hmade, hrows, -⟩ := buildCone_ok h
  rw [hrows] at hr
  obtain ⟨P, hP, hr⟩ := List.mem_flatMap.1 hr
  obtain ⟨i, -, cd, hcd, rfl⟩ := mem_partRows hr
  obtain ⟨-, m, idx, ht⟩ := tiling_ok (hmade P hP).tiling
  have hcd' := (mem_selected.1 hcd).1
  obtain ⟨halo, off, k, hhalo, -, -, -, -, hpl⟩ := cand_image ha ht hcd'
  have hsm : P.s ∈ metas := by
    have h1 : P.s ∈ snapsUsed st metas := by rw [← hs]; exact List.mem_map.2 ⟨P, hP, rfl⟩
    exact (snapsUsed_mem h1).1
  refine ⟨P.s, hsm, rfl, halo, ?_, ?_, k, ?_⟩
  · have hl := (hmade P hP).loaded
    unfold loaded at hl
    rcases hm : getMassIndex (data P.s.index).cuts st.h st.minMass false with e | mi
    · rw [hm] at hl; cases hl
    rw [hm] at hl
    simp only [Except.ok.injEq] at hl
    have hh : P.halos <+: (data P.s.index).halos := by
      rw [← hl]
      exact (List.take_prefix _ _).trans (List.take_prefix _ _)
    obtain ⟨tl, htl⟩ := hh
    rw [← htl]
    show (P.halos ++ tl)[cd.j % P.halos.length]? = some halo
    rw [List.getElem?_append_left (List.getElem?_eq_some_iff.1 hhalo).1]
    exact hhalo
  · simp [rowOf, List.getElem?_map, hhalo]
  · have := rowOf_vec st (spanOf st sky P.s) P.t P.s.index P.halos i cd
    unfold Row.vec at this
    rw [this, hpl]
    rfl

/-! ## C30 -/

/-- The distance of an object from the observer. -/
def Row.dist (st : Settings K) (r : Row K) : K := st.root (r.posZ ^ 2 + r.posX ^ 2 + r.posY ^ 2)

theorem placed_one (p : Span K) (t : Tiling K) (i : ℕ) (r : Vec K) : placed p t i r 1 = r 1 := by
  simp [placed]

theorem placed_two (p : Span K) (t : Tiling K) (i : ℕ) (r : Vec K) : placed p t i r 2 = r 2 := by
  simp [placed]

theorem rowOf_dist {st : Settings K} {sky : Sky K} {p : Span K} {t : Tiling K} {i : ℕ}
    {c : Cand K} (hc : c ∈ candidates st sky p t i) (snap : ℕ) (halos : List (Halo K)) :
    (rowOf st p t snap halos i c).dist st = c.d := by
  obtain ⟨q, -, -, hd⟩ := mem_candidates.1 hc
  rw [hd]
  have hv := rowOf_vec st p t snap halos i c
  unfold Row.dist sumSq
  rw [← hv]
  simp [Row.vec]

/-- A rotation that turns the line of sight into the first axis: the first component is the
component along the line of sight. -/
theorem first_component {sky : Sky K} (ha : Aligned sky)
    (hrot : Spec.IsRotation (sky.paM * sky.losM)) (w : Vec K) :
    ((sky.paM * sky.losM) *ᵥ w) 0 = sky.los 0 * w 0 + sky.los 1 * w 1 + sky.los 2 * w 2 := by
  have h1 : (sky.paM * sky.losM)ᵀ * (sky.paM * sky.losM) = 1 :=
    mul_eq_one_comm.1 hrot.1
  have h2 : (sky.paM * sky.losM) *ᵥ sky.los = e1 := by
    rw [← Matrix.mulVec_mulVec, ha.los, ha.pa]
  have h3 : (sky.paM * sky.losM)ᵀ *ᵥ (e1 : Vec K) = sky.los := by
    rw [← h2, Matrix.mulVec_mulVec, h1, Matrix.one_mulVec]
  have h4 : ((sky.paM * sky.losM) *ᵥ w) 0 = (e1 : Vec K) ⬝ᵥ ((sky.paM * sky.losM) *ᵥ w) := by
    simp [e1, dotProduct, Fin.sum_univ_three]
  rw [h4, Matrix.dotProduct_mulVec, ← Matrix.mulVec_transpose, h3]
  simp [dotProduct, Fin.sum_univ_three]

/-- C30, in the form it is true: distance, redshift and angular coordinates of every object agree
with its position; the distance is in the requested range and the angular coordinates are inside
the requested cross section; the object is in front of the observer if every snapshot starts
farther away than the buffer. -/
theorem C30_geometry_partial (st : Settings K) (sky : Sky K) (metas : List (SnapMeta K))
    (data : ℕ → SnapData K) (bins : List K) (c : Cone K) (D : K → K)
    (h : buildCone st sky metas data bins = .ok c) (hcons : Consistent st metas D)
    (r : Row K) (hr : r ∈ c.rows) :
    D st.zlo ≤ r.dist st ∧ r.dist st < D st.zhi ∧
    r.redshift = st.assignZ (r.dist st) ∧
    r.ra = r.posX / r.dist st ∧ r.dec = r.posY / r.dist st ∧
    (st.mode = .circle → st.root (r.posX ^ 2 + r.posY ^ 2) / r.dist st < st.angle / 2) ∧
    (st.mode = .box → |r.ra| ≤ st.angle / 2 ∧ |r.dec| ≤ st.angle * st.aspect / 2) ∧
    (0 < st.box → sky.losM *ᵥ sky.los = ![1, 0, 0] → sky.paM *ᵥ ![1, 0, 0] = ![1, 0, 0] →
      Spec.IsRotation (sky.paM * sky.losM) → (∀ a, 0 ≤ sky.los a) →
      (∀ s ∈ metas, s.tdmax * sky.bufCoef < max s.dmin st.dzmin) → 0 < r.posZ) := by
  obtain ⟨parts, hs, hmade, hrows, -⟩ := buildCone_ok h
  rw [hrows] at hr
  obtain ⟨P, hP, hr⟩ := List.mem_flatMap.1 hr
  obtain ⟨i, -, cd, hcd, rfl⟩ := mem_partRows hr
  obtain ⟨hit, m, idx, ht⟩ := tiling_ok (hmade P hP).tiling
  obtain ⟨hcand, hfield, hlt, hle⟩ := mem_selected.1 hcd
  have hsu : P.s ∈ snapsUsed st metas := by rw [← hs]; exact List.mem_map.2 ⟨P, hP, rfl⟩
  have hu := use_nonneg hcons sky hsu
  obtain ⟨hb1, hb2⟩ := slice_bounds hit hu i
  rw [rowOf_dist hcand]
  refine ⟨?_, ?_, rfl, rfl, rfl, ?_, ?_, ?_⟩
  · have : st.dzmin ≤ (spanOf st sky P.s).start := le_max_right _ _
    rw [← hcons.dzmin]
    exact this.trans (hb1.trans hle)
  · have : (spanOf st sky P.s).stop ≤ st.dzmax := min_le_right _ _
    rw [← hcons.dzmax]
    exact lt_of_lt_of_le hlt (hb2.trans this)
  · intro hm
    unfold inField at hfield
    rw [hm] at hfield
    simp only [decide_eq_true_eq] at hfield
    exact hfield.2
  · intro hm
    unfold inField at hfield
    rw [hm] at hfield
    simp only [decide_eq_true_eq] at hfield
    exact hfield.2
  · intro hbox hlos hpa hrot hpos hbuf
    have ha : Aligned sky := ⟨hlos, hpa⟩
    obtain ⟨halo, off, k, -, -, -, hmod, hr', -⟩ := cand_image ha ht hcand
    have hB : 0 < P.t.box := by
      rw [ht.box]
      exact mul_pos hbox (by exact_mod_cast ht.epos)
    have hw : ∀ a, 0 ≤ image st sky halo.pos k a - corner (spanOf st sky P.s) P.t.iters i *
        sky.los a := by
      intro a
      rw [← congrFun hmod a]
      exact pymod_nonneg hB _
    have h0 : 0 ≤ cd.r 0 := by
      rw [hr', Matrix.mulVec_mulVec, first_component ha hrot]
      have := mul_nonneg (hpos 0) (hw 0)
      have := mul_nonneg (hpos 1) (hw 1)
      have := mul_nonneg (hpos 2) (hw 2)
      linarith
    have hadv : 0 ≤ advance (spanOf st sky P.s) P.t.iters i := by
      have := advance_mono hit hu (Nat.zero_le i)
      rwa [advance_zero] at this
    have hbs : (spanOf st sky P.s).buf < (spanOf st sky P.s).start :=
      hbuf P.s (snapsUsed_mem hsu).1
    show 0 < cd.r 0 + (spanOf st sky P.s).start + advance (spanOf st sky P.s) P.t.iters i
      - (spanOf st sky P.s).buf
    linarith

/-! ## C31 -/

/-- C31: the slices of a snapshot are inside its range, and every distance of the range is in
exactly one of them. -/
theorem C31_partition (st : Settings K) (sky : Sky K) (metas : List (SnapMeta K)) (D : K → K)
    (hcons : Consistent st metas D) (s : SnapMeta K) (hs : s ∈ snapsUsed st metas)
    (halos : List (Halo K)) (t : Tiling K)
    (ht : tiling st sky (spanOf st sky s) halos = .ok t) (d : K) :
    (max s.dmin st.dzmin ≤ d ∧ d < min s.dmax st.dzmax) ↔
      ∃! i : ℕ, i < t.iters.toNat ∧ sliceMin (spanOf st sky s) t.iters i ≤ d ∧
        d < sliceMax (spanOf st sky s) t.iters i := by
  obtain ⟨hit, -⟩ := tiling_ok ht
  have hu := use_nonneg hcons sky hs
  constructor
  · rintro ⟨h0, h1⟩
    obtain ⟨i, hi, h2, h3⟩ := slice_exists hit (p := spanOf st sky s) h0 h1
    refine ⟨i, ⟨hi, h2, h3⟩, ?_⟩
    rintro j ⟨-, h4, h5⟩
    rcases lt_trichotomy i j with hij | hij | hij
    · have := slice_order hit hu hij
      exact absurd (lt_of_lt_of_le h3 this) (not_lt.2 h4)
    · exact hij.symm
    · have := slice_order hit hu hij
      exact absurd (lt_of_lt_of_le h5 this) (not_lt.2 h2)
  · rintro ⟨i, ⟨-, h2, h3⟩, -⟩
    obtain ⟨hb1, hb2⟩ := slice_bounds hit hu i
    exact ⟨hb1.trans h2, lt_of_lt_of_le h3 hb2⟩

/-- C31: if the box has room for the buffers, a slice is never longer than the part of the line of
sight that fits into the (copied) box. -/
theorem C31_slice_length (st : Settings K) (sky : Sky K) (p : Span K) (halos : List (Halo K))
    (t : Tiling K) (ht : tiling st sky p halos = .ok t) (i : ℕ) (hu : 0 ≤ p.use) :
    2 * p.buf < t.inBox ∧
    p.start + advance p t.iters (i + 1) - (p.start + advance p t.iters i) ≤ t.inBox - 2 * p.buf := by
  obtain ⟨hit, m, idx, htl⟩ := tiling_ok ht
  have hcount := htl.count
  unfold sliceCount at hcount
  by_cases h0 : t.inBox - 2 * p.buf = 0
  · rw [if_pos h0] at hcount; cases hcount
  rw [if_neg h0] at hcount
  simp only [Except.ok.injEq] at hcount
  have hpos : 0 < t.inBox - 2 * p.buf := by
    by_contra hneg
    have hlt : t.inBox - 2 * p.buf < 0 := lt_of_le_of_ne (not_lt.1 hneg) h0
    have : p.use / (t.inBox - 2 * p.buf) ≤ 0 := div_nonpos_of_nonneg_of_nonpos hu hlt.le
    have := Int.ceil_nonpos.2 this
    omega
  refine ⟨by linarith, ?_⟩
  have hI : (0 : K) < t.iters := by exact_mod_cast hit
  have h1 : p.use / (t.inBox - 2 * p.buf) ≤ t.iters := by
    rw [← hcount]
    exact Int.le_ceil _
  rw [div_le_iff₀ hpos] at h1
  have h2 : p.use / t.iters ≤ t.inBox - 2 * p.buf := by
    rw [div_le_iff₀ hI, mul_comm]
    exact h1
  have h3 : advance p t.iters (i + 1) - advance p t.iters i = p.use / t.iters := by
    unfold advance
    push_cast
    ring
  linarith

/-- Two candidates of a slice that are the same image of the same halo are the same candidate. -/
theorem cand_unique {st : Settings K} {sky : Sky K} {p : Span K} {halos : List (Halo K)}
    {t : Tiling K} {e : ℕ} {idx : List (ℕ × (Fin 3 → ℕ))} (ha : Aligned sky) (hb : 0 < st.box)
    (hrot : Spec.IsRotation (sky.paM * sky.losM))
    (hf : ∀ a, sky.flips a = 1 ∨ sky.flips a = -1)
    (ht : IsTiling st sky p halos t e idx) {i : ℕ} {c c' : Cand K}
    (hc : c ∈ candidates st sky p t i) (hc' : c' ∈ candidates st sky p t i)
    (hj : c.j % halos.length = c'.j % halos.length)
    (hv : placed p t i c.r = placed p t i c'.r) : c.j = c'.j := by
  obtain ⟨halo, off, k, h1, h2, h3, -, -, h6⟩ := cand_image ha ht hc
  obtain ⟨halo', off', k', h1', h2', h3', -, -, h6'⟩ := cand_image ha ht hc'
  have hh : halo = halo' := by
    rw [hj, h1'] at h1
    exact (Option.some.inj h1).symm
  subst hh
  rw [h6, h6'] at hv
  have hinv : (sky.paM * sky.losM)ᵀ * (sky.paM * sky.losM) = 1 := mul_eq_one_comm.1 hrot.1
  have himg : image st sky halo.pos k = image st sky halo.pos k' := by
    have := congrArg (fun v => (sky.paM * sky.losM)ᵀ *ᵥ v) hv
    simpa only [Matrix.mulVec_mulVec, hinv, Matrix.one_mulVec] using this
  have hk : ∀ a, k a = k' a := by
    intro a
    have := congrFun himg a
    unfold image at this
    have h7 : st.box * (k a : K) = st.box * (k' a : K) := by linarith
    exact_mod_cast mul_left_cancel₀ hb.ne' h7
  have hlt := ((ht.copies.mem _).1 (List.mem_of_getElem? h2)).2
  have hlt' := ((ht.copies.mem _).1 (List.mem_of_getElem? h2')).2
  have hoff : off = off' := by
    funext a
    obtain ⟨m, hm⟩ := h3 a
    obtain ⟨m', hm'⟩ := h3' a
    have he : sky.flips a * off a + e * m = sky.flips a * off' a + e * m' := by
      rw [← hm, ← hm', hk a]
    have hd : (e : ℤ) ∣ (off a : ℤ) - off' a := by
      have h8 : (sky.flips a) * ((off a : ℤ) - off' a) = e * (m' - m) := by linarith
      rcases hf a with h | h
      · rw [h] at h8
        exact ⟨m' - m, by linarith⟩
      · rw [h] at h8
        exact ⟨m - m', by linarith⟩
    have l1 := hlt a
    have l2 := hlt' a
    simp only at l1 l2
    have h9 : (off a : ℤ) - off' a = 0 :=
      Int.eq_zero_of_abs_lt_dvd hd (by rw [abs_lt]; constructor <;> omega)
    omega
  subst hoff
  rw [hj] at h2
  rw [List.getElem?_eq_some_iff] at h2 h2'
  obtain ⟨l1, e1'⟩ := h2
  obtain ⟨l2, e2'⟩ := h2'
  exact (List.Nodup.getElem_inj_iff ht.copies.nodup).1 (e1'.trans e2'.symm)

/-- C31: no image of a halo occurs twice in a lightcone. -/
theorem C31_once (st : Settings K) (sky : Sky K) (metas : List (SnapMeta K))
    (data : ℕ → SnapData K) (bins : List K) (c : Cone K) (D : K → K)
    (h : buildCone st sky metas data bins = .ok c) (hcons : Consistent st metas D)
    (hidx : (metas.map (·.index)).Nodup) (hbox : 0 < st.box)
    (hlos : sky.losM *ᵥ sky.los = ![1, 0, 0]) (hpa : sky.paM *ᵥ ![1, 0, 0] = ![1, 0, 0])
    (hrot : Spec.IsRotation (sky.paM * sky.losM))
    (hf : ∀ a, sky.flips a = 1 ∨ sky.flips a = -1) :
    (c.rows.map (fun r => (r.snap, r.index, ![r.posZ, r.posX, r.posY]))).Nodup := by
  have ha : Aligned sky := ⟨hlos, hpa⟩
  obtain ⟨parts, hs, hmade, hrows, -⟩ := buildCone_ok h
  rw [hrows, List.map_flatMap, List.nodup_flatMap]
  constructor
  · intro P hP
    obtain ⟨hit, m, idx, ht⟩ := tiling_ok (hmade P hP).tiling
    have hsu : P.s ∈ snapsUsed st metas := by rw [← hs]; exact List.mem_map.2 ⟨P, hP, rfl⟩
    have hu := use_nonneg hcons sky hsu
    unfold partRows
    rw [List.map_flatMap, List.nodup_flatMap]
    constructor
    · intro i _
      unfold sliceRows
      rw [List.map_map]
      have hnd : (candidates st sky (spanOf st sky P.s) P.t i).Nodup := by
        unfold candidates
        refine List.Nodup.map_on ?_ ?_
        · intro x hx y hy hxy
          have hj : x.2 = y.2 := congrArg Cand.j hxy
          have e1' := List.mem_zipIdx_iff_getElem?.1 hx
          have e2' := List.mem_zipIdx_iff_getElem?.1 hy
          rw [hj, e2'] at e1'
          exact Prod.ext (Option.some.inj e1').symm hj
        · refine List.Nodup.of_map Prod.snd ?_
          rw [List.zipIdx_map_snd]
          exact List.nodup_range'
      refine List.Nodup.map_on ?_ ?_
      · intro x hx y hy hxy
        have hx' := (mem_selected.1 hx).1
        have hy' := (mem_selected.1 hy).1
        simp only [Function.comp, Prod.mk.injEq] at hxy
        obtain ⟨-, hj, hv⟩ := hxy
        have hvx := rowOf_vec st (spanOf st sky P.s) P.t P.s.index P.halos i x
        have hvy := rowOf_vec st (spanOf st sky P.s) P.t P.s.index P.halos i y
        have hpl : placed (spanOf st sky P.s) P.t i x.r = placed (spanOf st sky P.s) P.t i y.r := by
          rw [← hvx, ← hvy]
          exact hv
        have hjj := cand_unique ha hbox hrot hf ht hx' hy' hj hpl
        obtain ⟨q, q1, q2, q3⟩ := mem_candidates.1 hx'
        obtain ⟨q', q1', q2', q3'⟩ := mem_candidates.1 hy'
        rw [hjj, q1'] at q1
        have hq := Option.some.inj q1
        have hr : x.r = y.r := by rw [q2, q2', hq]
        have hd : x.d = y.d := by rw [q3, q3', hr]
        cases x
        cases y
        simp only at hr hd hjj
        subst hr hd hjj
        rfl
      · unfold selected
        exact (List.perm_insertionSort _ _).nodup_iff.2 (hnd.filter _)
    · rw [List.pairwise_iff_getElem]
      intro i j hi hj hij x hx hy
      simp only [List.getElem_range] at hx hy
      obtain ⟨r1, hr1, rfl⟩ := List.mem_map.1 hx
      obtain ⟨r2, hr2, he⟩ := List.mem_map.1 hy
      unfold sliceRows at hr1 hr2
      obtain ⟨c1, hc1, rfl⟩ := List.mem_map.1 hr1
      obtain ⟨c2, hc2, rfl⟩ := List.mem_map.1 hr2
      obtain ⟨k1, -, l1, -⟩ := mem_selected.1 hc1
      obtain ⟨k2, -, -, l2⟩ := mem_selected.1 hc2
      have d1 := rowOf_dist k1 P.s.index P.halos
      have d2 := rowOf_dist k2 P.s.index P.halos
      simp only [Prod.mk.injEq] at he
      have hv := he.2.2
      have hd : c1.d = c2.d := by
        rw [← d1, ← d2]
        unfold Row.dist
        have z0 := congrFun hv 0
        have z1 := congrFun hv 1
        have z2 := congrFun hv 2
        simp only [Matrix.cons_val_zero, Matrix.cons_val_one, Matrix.cons_val] at z0 z1 z2
        rw [z0, z1, z2]
      have := slice_order hit hu hij
      rw [hd] at l1
      exact absurd (lt_of_lt_of_le l1 this) (not_lt.2 l2)
  · have hsn : (parts.map (fun P => P.s.index)).Nodup := by
      have h1 : (parts.map (fun P => P.s.index)) = (snapsUsed st metas).map (·.index) := by
        rw [← hs, List.map_map]
        rfl
      rw [h1]
      unfold snapsUsed
      refine ((Sim.sortByZ_perm _).map _).nodup_iff.2 ?_
      exact hidx.sublist (List.filter_sublist.map _)
    rw [List.nodup_iff_pairwise_ne, List.pairwise_map] at hsn
    refine hsn.imp ?_
    intro P Q hPQ x hx hy
    obtain ⟨r1, hr1, rfl⟩ := List.mem_map.1 hx
    obtain ⟨r2, hr2, he⟩ := List.mem_map.1 hy
    obtain ⟨i1, -, c1, -, rfl⟩ := mem_partRows hr1
    obtain ⟨i2, -, c2, -, rfl⟩ := mem_partRows hr2
    simp only [Prod.mk.injEq] at he
    exact hPQ he.1.symm

/-! ## C32 -/

theorem selected_sorted (st : Settings K) (sky : Sky K) (p : Span K) (t : Tiling K) (i : ℕ) :
    (selected st sky p t i).Pairwise (fun a b => a.d ≤ b.d) := by
  unfold selected
  have : Std.Total (fun a b : Cand K => a.d ≤ b.d) := ⟨fun a b => le_total _ _⟩
  have : IsTrans (Cand K) (fun a b : Cand K => a.d ≤ b.d) := ⟨fun a b c => le_trans⟩
  exact List.pairwise_insertionSort _ _

/-- C32: the rows of a lightcone are in order of distance. -/
theorem C32_sorted (st : Settings K) (sky : Sky K) (metas : List (SnapMeta K))
    (data : ℕ → SnapData K) (bins : List K) (c : Cone K) (D : K → K)
    (h : buildCone st sky metas data bins = .ok c) (hcons : Consistent st metas D) :
    c.rows.Pairwise (fun a b => a.dist st ≤ b.dist st) := by
  obtain ⟨parts, hs, hmade, hrows, -⟩ := buildCone_ok h
  rw [hrows, List.pairwise_flatMap]
  have hin : ∀ P ∈ parts, ∀ r ∈ partRows st sky P, (spanOf st sky P.s).start ≤ r.dist st ∧
      r.dist st < (spanOf st sky P.s).stop := by
    intro P hP r hr
    obtain ⟨hit, -⟩ := tiling_ok (hmade P hP).tiling
    have hsu : P.s ∈ snapsUsed st metas := by rw [← hs]; exact List.mem_map.2 ⟨P, hP, rfl⟩
    obtain ⟨i, -, cd, hcd, rfl⟩ := mem_partRows hr
    obtain ⟨k1, -, l1, l2⟩ := mem_selected.1 hcd
    obtain ⟨b1, b2⟩ := slice_bounds hit (use_nonneg hcons sky hsu) i
    rw [rowOf_dist k1]
    exact ⟨b1.trans l2, lt_of_lt_of_le l1 b2⟩
  constructor
  · intro P hP
    obtain ⟨hit, -⟩ := tiling_ok (hmade P hP).tiling
    have hsu : P.s ∈ snapsUsed st metas := by rw [← hs]; exact List.mem_map.2 ⟨P, hP, rfl⟩
    have hu := use_nonneg hcons sky hsu
    unfold partRows
    rw [List.pairwise_flatMap]
    constructor
    · intro i _
      unfold sliceRows
      rw [List.pairwise_map]
      refine (selected_sorted st sky (spanOf st sky P.s) P.t i).imp_of_mem ?_
      intro a b ha hb hab
      rw [rowOf_dist (mem_selected.1 ha).1, rowOf_dist (mem_selected.1 hb).1]
      exact hab
    · refine List.pairwise_lt_range.imp ?_
      intro i j hij x hx y hy
      unfold sliceRows at hx hy
      obtain ⟨c1, hc1, rfl⟩ := List.mem_map.1 hx
      obtain ⟨c2, hc2, rfl⟩ := List.mem_map.1 hy
      obtain ⟨k1, -, l1, -⟩ := mem_selected.1 hc1
      obtain ⟨k2, -, -, l2⟩ := mem_selected.1 hc2
      rw [rowOf_dist k1, rowOf_dist k2]
      exact (lt_of_lt_of_le l1 ((slice_order hit hu hij).trans l2)).le
  · have hord : parts.Pairwise (fun P Q => P.s.redshift < Q.s.redshift) := by
      have h1 : (parts.map (·.s)).Pairwise (fun a b => a.redshift ≤ b.redshift) := by
        rw [hs]
        exact Sim.sortByZ_sorted _
      have h2 : (parts.map (fun P => P.s.redshift)).Nodup := by
        have e : (parts.map (fun P => P.s.redshift)) = (snapsUsed st metas).map (·.redshift) := by
          rw [← hs, List.map_map]
          rfl
        rw [e]
        unfold snapsUsed
        refine ((Sim.sortByZ_perm _).map _).nodup_iff.2 ?_
        exact hcons.distinct.sublist (List.filter_sublist.map _)
      rw [List.pairwise_map] at h1
      rw [List.nodup_iff_pairwise_ne, List.pairwise_map] at h2
      exact (h1.and h2).imp (fun h => lt_of_le_of_ne h.1 h.2)
    refine hord.imp_of_mem ?_
    intro P Q hP hQ hPQ x hx y hy
    have hP' : P.s ∈ metas := by
      refine (snapsUsed_mem (st := st) ?_).1
      rw [← hs]; exact List.mem_map.2 ⟨P, hP, rfl⟩
    have hQ' : Q.s ∈ metas := by
      refine (snapsUsed_mem (st := st) ?_).1
      rw [← hs]; exact List.mem_map.2 ⟨Q, hQ, rfl⟩
    have hz := hcons.apart _ hP' _ hQ' hPQ
    have hd := hcons.mono _ _ hz
    rw [← hcons.dmax _ hP', ← hcons.dmin _ hQ'] at hd
    have h1 : (spanOf st sky P.s).stop ≤ P.s.dmax := min_le_left _ _
    have h2 : Q.s.dmin ≤ (spanOf st sky Q.s).start := le_max_left _ _
    exact ((hin P hP x hx).2.trans_le (h1.trans (hd.trans (h2.trans (hin Q hQ y hy).1)))).le

/-- C32: the rows of each snapshot are one block. -/
theorem C32_blocks (st : Settings K) (sky : Sky K) (metas : List (SnapMeta K))
    (data : ℕ → SnapData K) (bins : List K) (c : Cone K)
    (h : buildCone st sky metas data bins = .ok c)
    (hidx : (metas.map (·.index)).Nodup) (n : ℕ) :
    ∃ before block after, c.rows = before ++ block ++ after ∧ (∀ r ∈ before, r.snap ≠ n) ∧
      (∀ r ∈ block, r.snap = n) ∧ (∀ r ∈ after, r.snap ≠ n) := by
  obtain ⟨parts, hs, hmade, hrows, -⟩ := buildCone_ok h
  have hsn : (parts.map (fun P => P.s.index)).Nodup := by
    have h1 : (parts.map (fun P => P.s.index)) = (snapsUsed st metas).map (·.index) := by
      rw [← hs, List.map_map]
      rfl
    rw [h1]
    unfold snapsUsed
    refine ((Sim.sortByZ_perm _).map _).nodup_iff.2 ?_
    exact hidx.sublist (List.filter_sublist.map _)
  have hsnap : ∀ P : Part K, ∀ r ∈ partRows st sky P, r.snap = P.s.index := by
    intro P r hr
    obtain ⟨i, -, cd, -, rfl⟩ := mem_partRows hr
    rfl
  rw [hrows]
  by_cases hn : ∃ P ∈ parts, P.s.index = n
  · obtain ⟨P, hP, rfl⟩ := hn
    obtain ⟨l1, l2, rfl⟩ := List.append_of_mem hP
    rw [List.map_append, List.map_cons, List.nodup_append] at hsn
    obtain ⟨-, hn2, hn3⟩ := hsn
    rw [List.nodup_cons] at hn2
    refine ⟨l1.flatMap (partRows st sky), partRows st sky P, l2.flatMap (partRows st sky),
      by simp, ?_, hsnap P, ?_⟩
    · intro r hr
      obtain ⟨Q, hQ, hrQ⟩ := List.mem_flatMap.1 hr
      rw [hsnap Q r hrQ]
      exact hn3 _ (List.mem_map.2 ⟨Q, hQ, rfl⟩) _ (List.mem_cons_self)
    · intro r hr
      obtain ⟨Q, hQ, hrQ⟩ := List.mem_flatMap.1 hr
      rw [hsnap Q r hrQ]
      intro he
      exact hn2.1 (List.mem_map.2 ⟨Q, hQ, he⟩)
  · push Not at hn
    refine ⟨parts.flatMap (partRows st sky), [], [], by simp, ?_, by simp, by simp⟩
    intro r hr
    obtain ⟨Q, hQ, hrQ⟩ := List.mem_flatMap.1 hr
    rw [hsnap Q r hrQ]
    exact hn Q hQ

/-- C32: every entry of the redshift table but the first is the number of objects with a redshift
at or below the tabulated one.  (The first entry, for redshift 0, stays 0.) -/
theorem C32_table (st : Settings K) (sky : Sky K) (metas : List (SnapMeta K))
    (data : ℕ → SnapData K) (bins : List K) (c : Cone K)
    (h : buildCone st sky metas data bins = .ok c) :
    c.tab.map (·.1) = bins ∧
    (∀ (i : ℕ) (z : K), 0 < i → bins[i]? = some z →
      c.tab[i]? = some (z, (c.rows.filter (fun r => decide (r.redshift ≤ z))).length)) ∧
    (∀ z : K, bins[0]? = some z → c.tab[0]? = some (z, 0)) := by
  obtain ⟨parts, hs, hmade, hrows, htab⟩ := buildCone_ok h
  rw [htab, ← hrows]
  cases bins with
  | nil => simp [addIndex]
  | cons b rest =>
    refine ⟨?_, ?_, ?_⟩
    · simp [addIndex, Function.comp_def]
    · intro i z hi hz
      obtain ⟨j, rfl⟩ : ∃ j, i = j + 1 := ⟨i - 1, by omega⟩
      simp only [List.getElem?_cons_succ] at hz
      simp [addIndex, hz, List.countP_eq_length_filter]
    · intro z hz
      simp only [List.getElem?_cons_zero, Option.some.injEq] at hz
      subst hz
      simp [addIndex]

/-! ## Which images are in the lightcone -/

/-- A position (line of sight first) inside the cross section of the lightcone. -/
def Sees (st : Settings K) (v : Vec K) : Prop :=
  st.root (v 0 ^ 2 + v 1 ^ 2 + v 2 ^ 2) ≠ 0 ∧
  match st.mode with
  | .circle => st.root (v 1 ^ 2 + v 2 ^ 2) / st.root (v 0 ^ 2 + v 1 ^ 2 + v 2 ^ 2) < st.angle / 2
  | .box => |v 1 / st.root (v 0 ^ 2 + v 1 ^ 2 + v 2 ^ 2)| ≤ st.angle / 2 ∧
      |v 2 / st.root (v 0 ^ 2 + v 1 ^ 2 + v 2 ^ 2)| ≤ st.angle * st.aspect / 2

theorem inField_iff {st : Settings K} {sky : Sky K} {p : Span K} {t : Tiling K} {i : ℕ}
    {c : Cand K} (hc : c ∈ candidates st sky p t i) :
    inField st c = true ↔ Sees st (placed p t i c.r) := by
  obtain ⟨q, -, -, hd⟩ := mem_candidates.1 hc
  unfold inField Sees
  unfold sumSq at hd
  rw [← hd, placed_one, placed_two]
  cases st.mode <;> simp only [decide_eq_true_eq]

/-- The image `u` (before rotation) lies in the box whose corner slice `i` uses. -/
def FitsSlice (sky : Sky K) (p : Span K) (t : Tiling K) (i : ℕ) (u : Vec K) : Prop :=
  ∀ a, 0 ≤ u a - (p.start + advance p t.iters i - p.buf) * sky.los a ∧
    u a - (p.start + advance p t.iters i - p.buf) * sky.los a < t.box

/-- C66: of the images of a halo inside the cross section and in the distance range of a slice,
the lightcone contains exactly those that fit into the box used for the slice. -/
theorem C66_iff (st : Settings K) (sky : Sky K) (metas : List (SnapMeta K))
    (data : ℕ → SnapData K) (bins : List K) (c : Cone K) (D : K → K)
    (h : buildCone st sky metas data bins = .ok c) (hcons : Consistent st metas D)
    (hidx : (metas.map (·.index)).Nodup) (hbox : 0 < st.box)
    (hlos : sky.losM *ᵥ sky.los = ![1, 0, 0]) (hpa : sky.paM *ᵥ ![1, 0, 0] = ![1, 0, 0])
    (hrot : Spec.IsRotation (sky.paM * sky.losM))
    (hf : ∀ a, sky.flips a = 1 ∨ sky.flips a = -1)
    (s : SnapMeta K) (hs : s ∈ snapsUsed st metas)
    (halos : List (Halo K)) (hl : loaded st (data s.index) = .ok halos)
    (t : Tiling K) (ht : tiling st sky (spanOf st sky s) halos = .ok t)
    (n : ℕ) (halo : Halo K) (hn : halos[n]? = some halo) (k : Fin 3 → ℤ) (u v : Vec K)
    (hu : u = fun a => sky.flips a * halo.pos a - sky.start a + st.box * k a)
    (hv : v = (sky.paM * sky.losM) *ᵥ u) (hsees : Sees st v)
    (i : ℕ) (hi : i < t.iters.toNat)
    (hmin : sliceMin (spanOf st sky s) t.iters i ≤ st.root (v 0 ^ 2 + v 1 ^ 2 + v 2 ^ 2))
    (hmax : st.root (v 0 ^ 2 + v 1 ^ 2 + v 2 ^ 2) < sliceMax (spanOf st sky s) t.iters i) :
    (∃ r ∈ c.rows, r.snap = s.index ∧ r.index = n ∧ ![r.posZ, r.posX, r.posY] = v) ↔
      FitsSlice sky (spanOf st sky s) t i u := by
  have ha : Aligned sky := ⟨hlos, hpa⟩
  obtain ⟨parts, hps, hmade, hrows, -⟩ := buildCone_ok h
  have huse := use_nonneg hcons sky hs
  obtain ⟨hit, m, idx, htl⟩ := tiling_ok ht
  have himg : u = image st sky halo.pos k := hu
  have hB : 0 < t.box := by
    rw [htl.box]
    exact mul_pos hbox (by exact_mod_cast htl.epos)
  have hinv : (sky.paM * sky.losM)ᵀ * (sky.paM * sky.losM) = 1 := mul_eq_one_comm.1 hrot.1
  -- the part of snapshot `s`
  obtain ⟨P, hP, hPs⟩ : ∃ P ∈ parts, P.s = s := by
    rw [← hps] at hs
    exact List.mem_map.1 hs
  have hPm := hmade P hP
  have hPh : P.halos = halos := by
    have := hPm.loaded
    rw [hPs, hl] at this
    exact (Except.ok.inj this).symm
  have hPt : P.t = t := by
    have := hPm.tiling
    rw [hPs, hPh, ht] at this
    exact (Except.ok.inj this).symm
  obtain ⟨Ps, Ph, Pt⟩ := P
  simp only at hPs hPh hPt
  subst hPs hPh hPt
  constructor
  · rintro ⟨r, hr, hsn, hin, hrv⟩
    rw [hrows] at hr
    obtain ⟨Q, hQ, hrQ⟩ := List.mem_flatMap.1 hr
    obtain ⟨i', hi', cd, hcd, rfl⟩ := mem_partRows hrQ
    have hQs : Q.s = Ps := by
      have h1 : Q.s ∈ metas := by
        refine (snapsUsed_mem (st := st) ?_).1
        rw [← hps]; exact List.mem_map.2 ⟨Q, hQ, rfl⟩
      have h2 : Ps ∈ metas := (snapsUsed_mem hs).1
      exact List.inj_on_of_nodup_map hidx h1 h2 hsn
    have hQm := hmade Q hQ
    have hQh : Q.halos = Ph := by
      have := hQm.loaded
      rw [hQs, hl] at this
      exact (Except.ok.inj this).symm
    have hQt : Q.t = Pt := by
      have := hQm.tiling
      rw [hQs, hQh, ht] at this
      exact (Except.ok.inj this).symm
    obtain ⟨Qs, Qh, Qt⟩ := Q
    simp only at hQs hQh hQt
    subst hQs hQh hQt
    obtain ⟨hcand, -, l1, l2⟩ := mem_selected.1 hcd
    have hvec := rowOf_vec st (spanOf st sky Qs) Qt Qs.index Qh i' cd
    have hpl : placed (spanOf st sky Qs) Qt i' cd.r = v := by rw [← hvec]; exact hrv
    have hd : cd.d = st.root (v 0 ^ 2 + v 1 ^ 2 + v 2 ^ 2) := by
      obtain ⟨q, -, -, hd⟩ := mem_candidates.1 hcand
      rw [hd, hpl]
      rfl
    have hii : i' = i := by
      rw [hd] at l1 l2
      rcases lt_trichotomy i i' with hij | hij | hij
      · have := slice_order hit huse hij
        exact absurd (lt_of_lt_of_le hmax this) (not_lt.2 l2)
      · exact hij.symm
      · have := slice_order hit huse hij
        exact absurd (lt_of_lt_of_le l1 this) (not_lt.2 hmin)
    subst hii
    obtain ⟨halo', off, k', h1, -, -, hmod, -, h6⟩ := cand_image ha htl hcand
    have hu' : image st sky halo'.pos k' = u := by
      rw [hpl, hv] at h6
      have := congrArg (fun w => (sky.paM * sky.losM)ᵀ *ᵥ w) h6
      simpa only [Matrix.mulVec_mulVec, hinv, Matrix.one_mulVec] using this.symm
    intro a
    have hma := congrFun hmod a
    rw [hu'] at hma
    unfold corner at hma
    rw [← hma]
    exact ⟨pymod_nonneg hB _, pymod_lt hB _⟩
  · intro hfit
    rw [himg] at hfit hv
    obtain ⟨cd, hcd, hj, hpl⟩ := image_cand ha hbox hf htl hn k (fun a => (hfit a).1)
      (fun a => (hfit a).2)
    rw [← hv] at hpl
    have hd : cd.d = st.root (v 0 ^ 2 + v 1 ^ 2 + v 2 ^ 2) := by
      obtain ⟨q, -, -, hd⟩ := mem_candidates.1 hcd
      rw [hd, hpl]
      rfl
    have hsel : cd ∈ selected st sky (spanOf st sky Ps) Pt i := by
      refine mem_selected.2 ⟨hcd, ?_, ?_, ?_⟩
      · rw [inField_iff hcd, hpl]
        exact hsees
      · rw [hd]; exact hmax
      · rw [hd]; exact hmin
    refine ⟨rowOf st (spanOf st sky Ps) Pt Ps.index Ph i cd, ?_, rfl, hj, ?_⟩
    · rw [hrows]
      refine List.mem_flatMap.2 ⟨⟨Ps, Ph, Pt⟩, hP, ?_⟩
      unfold partRows sliceRows
      exact List.mem_flatMap.2 ⟨i, List.mem_range.2 hi, List.mem_map.2 ⟨cd, hsel, rfl⟩⟩
    · rw [← hpl]
      exact rowOf_vec st (spanOf st sky Ps) Pt Ps.index Ph i cd

theorem le_maxComp (v : Vec K) (a : Fin 3) : v a ≤ maxComp v := by
  unfold maxComp
  fin_cases a
  · exact le_trans (le_max_left _ _) (le_max_left _ _)
  · exact le_trans (le_max_right _ _) (le_max_left _ _)
  · exact le_max_right _ _

/-- C66: an image fits into the box of its slice if the buffer is at least its distance from the
line of sight, seen along each axis.  Here `along` is the length of the image along the line of
sight, `trans` its distance from the line of sight, and `d` its distance from the observer. -/
theorem C66_buffer_partial (st : Settings K) (sky : Sky K) (p : Span K) (halos : List (Halo K))
    (t : Tiling K) (ht : tiling st sky p halos = .ok t) (huse : 0 ≤ p.use)
    (i : ℕ) (u : Vec K) (along trans d : K)
    (hunit : sky.los 0 ^ 2 + sky.los 1 ^ 2 + sky.los 2 ^ 2 = 1) (hpos : ∀ a, 0 < sky.los a)
    (halong : along = u 0 * sky.los 0 + u 1 * sky.los 1 + u 2 * sky.los 2)
    (htrans : trans ^ 2 = u 0 ^ 2 + u 1 ^ 2 + u 2 ^ 2 - along ^ 2)
    (hle : along ≤ d) (hmin : sliceMin p t.iters i ≤ d) (hmax : d < sliceMax p t.iters i)
    (hbuf : ∀ a, 0 ≤ p.buf - (d - along) ∧
      trans ^ 2 * (1 - sky.los a ^ 2) ≤ ((p.buf - (d - along)) * sky.los a) ^ 2) :
    FitsSlice sky p t i u := by
  obtain ⟨hit, m, idx, htl⟩ := tiling_ok ht
  obtain ⟨-, hstep⟩ := C31_slice_length st sky p halos t ht i huse
  -- the component of the image across the line of sight
  have hperp : ∀ a, (u a - along * sky.los a) ^ 2 ≤ trans ^ 2 * (1 - sky.los a ^ 2) := by
    have horth : (u 0 - along * sky.los 0) * sky.los 0 + (u 1 - along * sky.los 1) * sky.los 1 +
        (u 2 - along * sky.los 2) * sky.los 2 = 0 := by
      have : (u 0 - along * sky.los 0) * sky.los 0 + (u 1 - along * sky.los 1) * sky.los 1 +
        (u 2 - along * sky.los 2) * sky.los 2 = along -
          along * (sky.los 0 ^ 2 + sky.los 1 ^ 2 + sky.los 2 ^ 2) := by rw [halong]; ring
      rw [this, hunit]; ring
    have htr : trans ^ 2 = (u 0 - along * sky.los 0) ^ 2 + (u 1 - along * sky.los 1) ^ 2 +
        (u 2 - along * sky.los 2) ^ 2 := by
      have e : (u 0 - along * sky.los 0) ^ 2 + (u 1 - along * sky.los 1) ^ 2 +
        (u 2 - along * sky.los 2) ^ 2 = u 0 ^ 2 + u 1 ^ 2 + u 2 ^ 2
          - 2 * along * (u 0 * sky.los 0 + u 1 * sky.los 1 + u 2 * sky.los 2)
          + along ^ 2 * (sky.los 0 ^ 2 + sky.los 1 ^ 2 + sky.los 2 ^ 2) := by ring
      rw [e, hunit, ← halong, htrans]; ring
    rw [htr]
    have key : ∀ (x y z p q r : K), x * p + y * q + z * r = 0 → p ^ 2 + q ^ 2 + r ^ 2 = 1 →
        x ^ 2 ≤ (x ^ 2 + y ^ 2 + z ^ 2) * (1 - p ^ 2) := by
      intro x y z p q r h1 h2
      have h3 : 1 - p ^ 2 = q ^ 2 + r ^ 2 := by linarith
      have h4 : (x * p) ^ 2 ≤ (y ^ 2 + z ^ 2) * (q ^ 2 + r ^ 2) := by
        have : x * p = -(y * q + z * r) := by linarith
        rw [this]
        nlinarith [sq_nonneg (y * r - z * q)]
      nlinarith
    intro a
    fin_cases a
    · exact key _ _ _ _ _ _ horth hunit
    · have := key (u 1 - along * sky.los 1) (u 0 - along * sky.los 0) (u 2 - along * sky.los 2)
        (sky.los 1) (sky.los 0) (sky.los 2) (by linarith) (by linarith)
      refine this.trans (le_of_eq ?_)
      show _ = _ * (1 - sky.los 1 ^ 2)
      ring
    · have := key (u 2 - along * sky.los 2) (u 0 - along * sky.los 0) (u 1 - along * sky.los 1)
        (sky.los 2) (sky.los 0) (sky.los 1) (by linarith) (by linarith)
      refine this.trans (le_of_eq ?_)
      show _ = _ * (1 - sky.los 2 ^ 2)
      ring
  have habs : ∀ a, |u a - along * sky.los a| ≤ (p.buf - (d - along)) * sky.los a := by
    intro a
    exact abs_le_of_sq_le_sq ((hperp a).trans (hbuf a).2)
      (mul_nonneg (hbuf a).1 (hpos a).le)
  have hmaxpos : 0 < maxComp sky.los := lt_of_lt_of_le (hpos 0) (le_maxComp _ _)
  intro a
  have h1 := abs_le.1 (habs a)
  have hmin' : p.start + advance p t.iters i ≤ d := hmin
  have hmax' : d < p.start + advance p t.iters (i + 1) := lt_of_lt_of_le hmax (min_le_left _ _)
  have hla := hpos a
  constructor
  · have e : u a - (p.start + advance p t.iters i - p.buf) * sky.los a =
        (u a - along * sky.los a) + (p.buf - (d - along)) * sky.los a
          + (d - (p.start + advance p t.iters i)) * sky.los a := by ring
    rw [e]
    have := mul_nonneg (sub_nonneg.2 hmin') hla.le
    linarith [h1.1]
  · have e : u a - (p.start + advance p t.iters i - p.buf) * sky.los a =
        (u a - along * sky.los a) + (along - (p.start + advance p t.iters i) + p.buf) * sky.los a := by
      ring
    have h2 : (along - (p.start + advance p t.iters i) + p.buf) * sky.los a ≤
        (t.inBox - p.buf - (d - along)) * sky.los a := by
      apply mul_le_mul_of_nonneg_right _ hla.le
      linarith
    have h3 : (t.inBox - p.buf - (d - along)) * sky.los a + (p.buf - (d - along)) * sky.los a ≤
        t.inBox * sky.los a := by
      have : (t.inBox - p.buf - (d - along)) * sky.los a + (p.buf - (d - along)) * sky.los a =
        t.inBox * sky.los a - 2 * ((d - along) * sky.los a) := by ring
      rw [this]
      have := mul_nonneg (sub_nonneg.2 hle) hla.le
      linarith
    have h4 : (along - (p.start + advance p t.iters i) + p.buf) * sky.los a <
        (t.inBox - p.buf - (d - along)) * sky.los a := by
      apply mul_lt_mul_of_pos_right _ hla
      linarith
    have h5 : t.inBox * sky.los a ≤ t.box := by
      rw [htl.inBox, htl.box]
      have hbm : 0 ≤ st.box / maxComp sky.los * ((2 ^ m : ℕ) : K) := by
        rw [← htl.inBox]
        obtain ⟨h6, -⟩ := C31_slice_length st sky p halos t ht i huse
        have := (hbuf a).1
        linarith
      calc st.box / maxComp sky.los * ((2 ^ m : ℕ) : K) * sky.los a
          ≤ st.box / maxComp sky.los * ((2 ^ m : ℕ) : K) * maxComp sky.los :=
            mul_le_mul_of_nonneg_left (le_maxComp _ _) hbm
        _ = st.box * ((2 ^ m : ℕ) : K) := by field_simp
    rw [e]
    linarith [h1.2]

/-- C30: whenever a lightcone begins so near that its first slice starts at a distance `d` of less
than the buffer, a halo with an image at the distance `d` *behind* the observer on the line of
sight is included. -/
theorem C30_behind_observer (st : Settings K) (sky : Sky K) (metas : List (SnapMeta K))
    (data : ℕ → SnapData K) (bins : List K) (c : Cone K) (D : K → K)
    (h : buildCone st sky metas data bins = .ok c) (hcons : Consistent st metas D)
    (hidx : (metas.map (·.index)).Nodup) (hbox : 0 < st.box)
    (hroot : ∀ x, 0 ≤ x → st.root (x ^ 2) = x) (hangle : 0 < st.angle) (haspect : 0 ≤ st.aspect)
    (hlos : sky.losM *ᵥ sky.los = ![1, 0, 0]) (hpa : sky.paM *ᵥ ![1, 0, 0] = ![1, 0, 0])
    (hrot : Spec.IsRotation (sky.paM * sky.losM)) (hpos : ∀ a, 0 < sky.los a)
    (hf : ∀ a, sky.flips a = 1 ∨ sky.flips a = -1)
    (s : SnapMeta K) (hs : s ∈ snapsUsed st metas)
    (halos : List (Halo K)) (hl : loaded st (data s.index) = .ok halos)
    (t : Tiling K) (ht : tiling st sky (spanOf st sky s) halos = .ok t)
    (n : ℕ) (halo : Halo K) (hn : halos[n]? = some halo) (k : Fin 3 → ℤ) (d : K) (hd : 0 < d)
    (hu : (fun a => sky.flips a * halo.pos a - sky.start a + st.box * k a) =
      fun a => -d * sky.los a)
    (hstart : 0 ≤ (spanOf st sky s).start) (hmin : (spanOf st sky s).start ≤ d)
    (hmax : d < sliceMax (spanOf st sky s) t.iters 0)
    (hbuf : d + (spanOf st sky s).start ≤ (spanOf st sky s).buf) :
    ∃ r ∈ c.rows, r.snap = s.index ∧ r.index = n ∧ r.posZ = -d ∧ r.posX = 0 ∧ r.posY = 0 := by
  obtain ⟨hit, m, idx, htl⟩ := tiling_ok ht
  have hv : ![-d, 0, 0] = (sky.paM * sky.losM) *ᵥ (fun a => -d * sky.los a) := by
    have e : (fun a => -d * sky.los a) = (-d) • sky.los := by
      funext a
      simp
    rw [e, Matrix.mulVec_smul, ← Matrix.mulVec_mulVec, hlos, hpa]
    funext a
    fin_cases a <;> simp
  have hr1 : st.root ((![-d, 0, 0] : Vec K) 0 ^ 2 + (![-d, 0, 0] : Vec K) 1 ^ 2
      + (![-d, 0, 0] : Vec K) 2 ^ 2) = d := by
    have e : (![-d, 0, 0] : Vec K) 0 ^ 2 + (![-d, 0, 0] : Vec K) 1 ^ 2
      + (![-d, 0, 0] : Vec K) 2 ^ 2 = d ^ 2 := by simp
    rw [e, hroot d hd.le]
  have hr2 : st.root ((![-d, 0, 0] : Vec K) 1 ^ 2 + (![-d, 0, 0] : Vec K) 2 ^ 2) = 0 := by
    have e : (![-d, 0, 0] : Vec K) 1 ^ 2 + (![-d, 0, 0] : Vec K) 2 ^ 2 = 0 ^ 2 := by simp
    rw [e, hroot 0 le_rfl]
  have hsees : Sees st (![-d, 0, 0] : Vec K) := by
    unfold Sees
    rw [hr1, hr2]
    refine ⟨hd.ne', ?_⟩
    cases st.mode
    · simp only [zero_div]
      linarith
    · constructor
      · simp
        positivity
      · simp
        positivity
  have hfirst : sliceMin (spanOf st sky s) t.iters 0 = (spanOf st sky s).start := by
    unfold sliceMin advance
    simp
  have hfit : FitsSlice sky (spanOf st sky s) t 0 (fun a => -d * sky.los a) := by
    have h0 : advance (spanOf st sky s) t.iters 0 = 0 := by
      unfold advance
      simp
    have huse := use_nonneg hcons sky hs
    obtain ⟨hroom, -⟩ := C31_slice_length st sky _ halos t ht 0 huse
    have hs0 : 0 < maxComp sky.los := lt_of_lt_of_le (hpos 0) (le_maxComp _ _)
    intro a
    rw [h0]
    have e : -d * sky.los a - ((spanOf st sky s).start + 0 - (spanOf st sky s).buf) * sky.los a =
        ((spanOf st sky s).buf - (d + (spanOf st sky s).start)) * sky.los a := by ring
    simp only
    rw [e]
    refine ⟨mul_nonneg (by linarith) (hpos a).le, ?_⟩
    have h5 : t.inBox * maxComp sky.los = t.box := by
      rw [htl.inBox, htl.box]
      field_simp
    have hin : 0 < t.inBox := by linarith
    have hlt : (spanOf st sky s).buf - (d + (spanOf st sky s).start) < t.inBox := by linarith
    calc ((spanOf st sky s).buf - (d + (spanOf st sky s).start)) * sky.los a
        < t.inBox * sky.los a := mul_lt_mul_of_pos_right hlt (hpos a)
      _ ≤ t.inBox * maxComp sky.los := mul_le_mul_of_nonneg_left (le_maxComp _ _) hin.le
      _ = t.box := h5
  obtain ⟨r, hr, h1, h2, h3⟩ := (C66_iff st sky metas data bins c D h hcons hidx hbox hlos hpa hrot hf
    s hs halos hl t ht n halo hn k _ ![-d, 0, 0] hu.symm hv hsees 0 (by omega)
    (by rw [hr1, hfirst]; exact hmin) (by rw [hr1]; exact hmax)).2 hfit
  refine ⟨r, hr, h1, h2, congrFun h3 0, congrFun h3 1, congrFun h3 2⟩

end Verif.LC
