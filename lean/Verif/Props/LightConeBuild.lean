import Mathlib.Data.Nat.Log
import Verif.Props.LightConeEx
import Verif.Props.SimLookup

/-!
# Which halos enter a lightcone (C52), and which requests can be fulfilled (C68)
-/

set_option linter.unusedSectionVars false

namespace Verif.LC

open Verif.Sim (Err SnapMeta sortByZ getMassIndex pyIndex C11_rows_read C11_above_highest_loses)
open Verif.Sim.Spec (CutTable)
open Matrix

variable {K : Type} [Field K] [LinearOrder K] [IsStrictOrderedRing K] [FloorRing K]

/-! ## C52 -/

/-- A list in order of decreasing mass: the objects at or above a limit, then the others. -/
theorem split_sorted (M : K) (l : List (Halo K)) (h : l.Pairwise (fun a b => a.mass ≥ b.mass)) :
    ∃ l1 l2, l = l1 ++ l2 ∧ (∀ x ∈ l1, M ≤ x.mass) ∧ (∀ x ∈ l2, x.mass < M) := by
  induction l with
  | nil => exact ⟨[], [], rfl, by simp, by simp⟩
  | cons a l ih =>
    rw [List.pairwise_cons] at h
    by_cases ha : M ≤ a.mass
    · obtain ⟨l1, l2, rfl, h1, h2⟩ := ih h.2
      refine ⟨a :: l1, l2, rfl, ?_, h2⟩
      intro x hx
      rcases List.mem_cons.1 hx with rfl | hx
      · exact ha
      · exact h1 x hx
    · refine ⟨[], a :: l, rfl, by simp, ?_⟩
      intro x hx
      rcases List.mem_cons.1 hx with rfl | hx
      · exact not_le.1 ha
      · exact lt_of_le_of_lt (h.1 x hx) (not_le.1 ha)

theorem finalCount_split (M : K) (l1 l2 : List (Halo K)) (h1 : ∀ x ∈ l1, M ≤ x.mass)
    (h2 : ∀ x ∈ l2, x.mass < M) : finalCount M (l1 ++ l2) = l1.length := by
  unfold finalCount
  rw [List.zipIdx_append, List.filter_append]
  have e2 : (l2.zipIdx (0 + l1.length)).filter (fun q => decide (M ≤ q.1.mass)) = [] := by
    rw [List.filter_eq_nil_iff]
    rintro ⟨x, i⟩ hx
    have := h2 x (List.fst_mem_of_mem_zipIdx hx)
    simpa using this
  have e1 : (l1.zipIdx).filter (fun q => decide (M ≤ q.1.mass)) = l1.zipIdx := by
    rw [List.filter_eq_self]
    rintro ⟨x, i⟩ hx
    have := h1 x (List.fst_mem_of_mem_zipIdx hx)
    simpa using this
  rw [e1, e2, List.append_nil]
  have e3 : l1.zipIdx.map (fun q => q.2 + 1) = (List.range l1.length).map (· + 1) := by
    rw [List.range_eq_range', ← List.zipIdx_map_snd 0 l1, List.map_map]
    rfl
  rw [e3, List.getLastD_eq_getLast?, List.getLast?_map, List.getLast?_range]
  by_cases h0 : l1.length = 0
  · simp [h0]
  · simp [h0]
    omega

/-- The halos read, given the number of rows found in the table of mass cuts: those of these rows
at or above the minimum mass. -/
theorem loaded_eq_filter (st : Settings K) (d : SnapData K)
    (hsort : d.halos.Pairwise (fun a b => a.mass ≥ b.mass)) (m : ℕ)
    (hm : getMassIndex d.cuts st.h st.minMass false = .ok m) :
    loaded st d = .ok ((d.halos.take m).filter (fun x => decide (st.minMass ≤ x.mass))) := by
  unfold loaded
  rw [hm]
  simp only
  obtain ⟨l1, l2, e, h1, h2⟩ := split_sorted st.minMass (d.halos.take m)
    (hsort.sublist (List.take_sublist _ _))
  rw [e, finalCount_split _ _ _ h1 h2, List.take_left, List.filter_append]
  congr 1
  have f1 : l1.filter (fun x => decide (st.minMass ≤ x.mass)) = l1 := by
    rw [List.filter_eq_self]
    intro x hx
    simpa using h1 x hx
  have f2 : l2.filter (fun x => decide (st.minMass ≤ x.mass)) = [] := by
    rw [List.filter_eq_nil_iff]
    intro x hx
    simpa using h2 x hx
  rw [f1, f2, List.append_nil]

/-- C52 in full: the halos considered for a lightcone are those at or above the minimum mass. -/
def C52_full : Prop :=
  ∀ (st : Settings ℚ) (d : SnapData ℚ), 0 < st.h → 0 ≤ st.minMass → d.cuts ≠ [] →
    d.halos.Pairwise (fun a b => a.mass ≥ b.mass) → CutTable (d.halos.map (·.mass)) d.cuts →
    loaded st d = .ok (d.halos.filter (fun x => decide (st.minMass ≤ x.mass)))

/-- C52, where it is true: if the minimum mass is in the range of the table of mass cuts and no cut
lies above the minimum mass and at or below the minimum mass divided by `h`, exactly the halos at
or above the minimum mass are considered. -/
theorem C52_partial (st : Settings K) (d : SnapData K)
    (hsort : d.halos.Pairwise (fun a b => a.mass ≥ b.mass))
    (ht : CutTable (d.halos.map (·.mass)) d.cuts)
    (hlow : ∃ c ∈ d.cuts, c.1 ≤ st.minMass / st.h) (hhigh : ∃ c ∈ d.cuts, st.minMass / st.h < c.1)
    (hgap : ∀ c ∈ d.cuts, c.1 ≤ st.minMass / st.h → c.1 ≤ st.minMass) :
    loaded st d = .ok (d.halos.filter (fun x => decide (st.minMass ≤ x.mass))) := by
  obtain ⟨n, h1, c, hc, h2, -, h4⟩ := C11_rows_read (d.halos.map (·.mass)) d.cuts
    (by rw [List.pairwise_map]; exact hsort) ht st.h st.minMass false (by simpa using hlow)
    (by simpa using hhigh)
  rw [loaded_eq_filter st d hsort n h1]
  congr 1
  conv_rhs => rw [← List.take_append_drop n d.halos, List.filter_append]
  have : (d.halos.drop n).filter (fun x => decide (st.minMass ≤ x.mass)) = [] := by
    rw [List.filter_eq_nil_iff]
    intro x hx
    obtain ⟨i, hi⟩ := List.mem_iff_getElem?.1 hx
    rw [List.getElem?_drop] at hi
    have h5 := h4 (n + i) x.mass (by rw [List.getElem?_map, hi]; rfl)
    have h6 := hgap c hc (by simpa using h2)
    have h7 : ¬ c.1 ≤ x.mass := fun h => absurd (h5.2 h) (by omega)
    simp only [decide_eq_true_eq]
    intro h8
    exact h7 (h6.trans h8)
  rw [this, List.append_nil]

/-- C52 is false whenever a mass cut lies above the minimum mass and at or below the minimum mass
divided by `h`: no halo between the minimum mass and this cut is ever in a lightcone. -/
theorem C52_loses (st : Settings K) (sky : Sky K) (metas : List (SnapMeta K))
    (data : ℕ → SnapData K) (bins : List K) (c : Cone K)
    (h : buildCone st sky metas data bins = .ok c) (k : ℕ)
    (hsort : (data k).halos.Pairwise (fun a b => a.mass ≥ b.mass))
    (ht : CutTable ((data k).halos.map (·.mass)) (data k).cuts)
    (cut : K × ℕ) (hcut : cut ∈ (data k).cuts) (hle : cut.1 ≤ st.minMass / st.h)
    (hhigh : ∃ c ∈ (data k).cuts, st.minMass / st.h < c.1)
    (n : ℕ) (halo : Halo K) (hn : (data k).halos[n]? = some halo) (hlt : halo.mass < cut.1) :
    ∀ r ∈ c.rows, ¬ (r.snap = k ∧ r.index = n) := by
  rintro r hr ⟨hsn, hin⟩
  obtain ⟨parts, hs, hmade, hrows, -⟩ := buildCone_ok h
  rw [hrows] at hr
  obtain ⟨P, hP, hr⟩ := List.mem_flatMap.1 hr
  obtain ⟨i, -, cd, hcd, rfl⟩ := mem_partRows hr
  have hk : P.s.index = k := hsn
  have hload := (hmade P hP).loaded
  rw [hk] at hload
  obtain ⟨m, h1, c', hc', h2, h3, h4⟩ := C11_rows_read ((data k).halos.map (·.mass)) (data k).cuts
    (by rw [List.pairwise_map]; exact hsort) ht st.h st.minMass false
    ⟨cut, hcut, by simpa using hle⟩ (by simpa using hhigh)
  rw [loaded_eq_filter st _ hsort m h1] at hload
  simp only [Except.ok.injEq] at hload
  -- the row index is below the number of halos read
  obtain ⟨-, mm, idx, htl⟩ := tiling_ok (hmade P hP).tiling
  have hne : 0 < P.halos.length := by
    obtain ⟨q, hq, -⟩ := mem_candidates.1 (mem_selected.1 hcd).1
    rw [htl.positions, List.getElem?_map] at hq
    obtain ⟨x, hx, -⟩ := Option.map_eq_some_iff.1 hq
    have := ((htl.copies.mem x).1 (List.mem_of_getElem? hx)).1
    omega
  have hidx : cd.j % P.halos.length < P.halos.length := Nat.mod_lt _ hne
  have hin' : cd.j % P.halos.length = n := hin
  rw [hin', ← hload] at hidx
  have hnm : n < m := lt_of_lt_of_le hidx
    ((List.length_filter_le _ _).trans (by rw [List.length_take]; exact min_le_left _ _))
  have h5 := (h4 n halo.mass (by rw [List.getElem?_map, hn]; rfl)).1 hnm
  have h6 := h3 cut hcut (by simpa using hle)
  exact absurd hlt (not_lt.2 (h6.trans h5))

/-- A simulation with `h = 1/2`, mass cuts 8, 4, 2, 1, and a halo of mass 3/2. -/
def lossData : SnapData ℚ := ⟨[(8, 0), (4, 0), (2, 0), (1, 1)], [⟨3/2, fun _ => 0⟩]⟩

/-- A lightcone with minimum mass 1. -/
def lossSt : Settings ℚ where
  box := 130
  h := 1 / 2
  mode := .circle
  angle := 1 / 10
  aspect := 1
  zlo := 1
  zhi := 20
  dzmin := 1
  dzmax := 20
  minMass := 1
  copiesMax := 2
  root := id
  assignZ := id

theorem loss_table : CutTable (lossData.halos.map (·.mass)) lossData.cuts := by
  refine ⟨by unfold lossData; norm_num, ?_⟩
  decide +kernel

/-- C52 is false: with minimum mass 1 and `h = 1/2` a halo of mass 3/2 is left out. -/
theorem C52_full_false : ¬ C52_full := by
  intro h
  have h1 := h lossSt lossData (by norm_num [lossSt]) (by norm_num [lossSt]) (by simp [lossData])
    (by simp [lossData]) loss_table
  have h2 : (loaded lossSt lossData).map List.length = .ok 0 := by decide +kernel
  rw [h1] at h2
  have h3 : (lossData.halos.filter (fun x => decide (lossSt.minMass ≤ x.mass))).length = 1 := by
    decide +kernel
  simp only [Except.map, h3] at h2
  cases h2

/-- The hypotheses of `C52_loses` hold for this case, and those of `C52_partial` for minimum mass
3/2 and a value of `h` nearer to 1. -/
example : (∃ cut ∈ lossData.cuts, cut.1 ≤ lossSt.minMass / lossSt.h ∧ (3/2 : ℚ) < cut.1) ∧
    (∃ c ∈ lossData.cuts, lossSt.minMass / lossSt.h < c.1) := by
  decide +kernel

example : loaded { lossSt with minMass := 3/2, h := 9/10 } lossData =
    .ok (lossData.halos.filter (fun x => decide (3/2 ≤ x.mass))) :=
  C52_partial { lossSt with minMass := 3/2, h := 9/10 } lossData (by simp [lossData]) loss_table
    (by decide +kernel) (by decide +kernel) (by decide +kernel)

/-! ## C68 -/

theorem two_pow_doublings (c : ℕ) : c ≤ 2 ^ doublings c := by
  have h1 : doublings c = Nat.clog 2 c := by
    unfold doublings
    have e : (List.range c).countP (fun k => decide (2 ^ k < c)) =
        (List.range c).countP (fun k => decide (k < Nat.clog 2 c)) := by
      apply List.countP_congr
      intro k _
      simp only [decide_eq_true_eq]
      exact (Nat.lt_clog_iff_pow_lt (by norm_num)).symm
    rw [e]
    have hle : Nat.clog 2 c ≤ c := by
      rw [Nat.clog_le_iff_le_pow (by norm_num)]
      exact Nat.lt_two_pow_self.le
    obtain ⟨d, hd⟩ := Nat.exists_eq_add_of_le hle
    generalize Nat.clog 2 c = m at *
    subst hd
    rw [List.range_add, List.countP_append]
    have e1 : (List.range m).countP (fun k => decide (k < m)) = m := by
      rw [List.countP_eq_length.2, List.length_range]
      intro a ha
      simpa using ha
    have e2 : ((List.range d).map (m + ·)).countP (fun k => decide (k < m)) = 0 := by
      rw [List.countP_eq_zero]
      intro a ha
      obtain ⟨b, -, rfl⟩ := List.mem_map.1 ha
      simp
    rw [e1, e2]
    rfl
  rw [h1]
  exact Nat.le_pow_clog (by norm_num) c

/-- The loop that copies the box ends with a positive number of slices. -/
theorem expand_total (use buf : K) (hu : 0 < use) : ∀ (left : ℕ) (t : Tiling K),
    sliceCount use t.inBox buf = .ok t.iters →
    (∀ k ≤ left, t.inBox * 2 ^ k ≠ 2 * buf) → 2 * buf < t.inBox * 2 ^ left →
    ∃ t', expand use buf left t = .ok t' := by
  intro left
  induction left with
  | zero =>
    intro t hs hne hroom
    have hit : 0 < t.iters := by
      unfold sliceCount at hs
      rw [pow_zero, mul_one] at hroom
      rw [if_neg (by linarith)] at hs
      simp only [Except.ok.injEq] at hs
      rw [← hs]
      exact Int.ceil_pos.2 (div_pos hu (by linarith))
    unfold expand
    split
    · rw [if_neg (by omega)]
      exact ⟨t, rfl⟩
    · exact ⟨t, rfl⟩
  | succ left ih =>
    intro t hs hne hroom
    unfold expand
    split
    · have h1 : t.inBox * 2 - 2 * buf ≠ 0 := by
        have := hne 1 (by omega)
        rw [pow_one] at this
        exact sub_ne_zero.2 this
      have h2 : sliceCount use (t.inBox * 2) buf = .ok ⌈use / (t.inBox * 2 - 2 * buf)⌉ := by
        unfold sliceCount
        rw [if_neg h1]
      rw [h2]
      refine ih _ h2 ?_ ?_
      · intro k hk
        have := hne (k + 1) (by omega)
        simp only
        rw [mul_assoc, ← pow_succ']
        exact this
      · simp only
        rw [mul_assoc, ← pow_succ']
        exact hroom
    · exact ⟨t, rfl⟩

theorem getMassIndex_total (cuts : List (K × ℕ)) (h M : K) (b : Bool) :
    ∃ m, getMassIndex cuts h M b = .ok m := by
  unfold getMassIndex
  simp only
  generalize (if b = true then M else M / h) = L
  have hle : ((cuts.map (fun c => c.1 - L)).filter (fun v => decide (v > 0))).length ≤
      cuts.length := (List.length_filter_le _ _).trans (by simp)
  generalize ((cuts.map (fun c => c.1 - L)).filter (fun v => decide (v > 0))).length = n at hle
  have hpy : ∀ j : ℕ, j < cuts.length → ∃ m, pyIndex (cuts.map (·.2)) (j : ℤ) = .ok m := by
    intro j hj
    refine ⟨(cuts.map (·.2))[j]'(by simpa using hj), ?_⟩
    exact Sim.pyIndex_nat _ _ _ (List.getElem?_eq_getElem _)
  split
  · exact ⟨_, rfl⟩
  split
  · rename_i h1 h2
    have : pyIndex (cuts.map (·.2)) (-1) = pyIndex (cuts.map (·.2)) ((cuts.length - 1 : ℕ) : ℤ) := by
      have h3 : ((-1 : ℤ) + (cuts.map (·.2)).length) = ((cuts.length - 1 : ℕ) : ℤ) := by
        rw [List.length_map]
        omega
      have h4 : ¬ ((cuts.length - 1 : ℕ) : ℤ) < 0 := by omega
      unfold pyIndex
      simp only [h3, h4, if_false, show ((-1 : ℤ) < 0) from by norm_num, if_true]
    rw [this]
    exact hpy _ (by omega)
  · exact hpy _ (by omega)

theorem loaded_total (st : Settings K) (d : SnapData K) : ∃ hs, loaded st d = .ok hs := by
  obtain ⟨m, hm⟩ := getMassIndex_total d.cuts st.h st.minMass false
  unfold loaded
  rw [hm]
  exact ⟨_, rfl⟩

/-- C68, where it is true: if every snapshot used covers a positive range of distances and the
copied box has room for the buffers (the test of the line of sight), the lightcone is built.
(The case that the buffers fill a copied box exactly is excluded.) -/
theorem C68_partial (st : Settings K) (sky : Sky K) (metas : List (SnapMeta K))
    (data : ℕ → SnapData K) (bins : List K) (hpos : ∀ a, 0 < sky.los a) (hbox : 0 < st.box)
    (huse : ∀ s ∈ snapsUsed st metas, 0 < (spanOf st sky s).use)
    (hroom : ∀ s ∈ snapsUsed st metas,
      2 * (spanOf st sky s).buf < st.copiesMax * (st.box / maxComp sky.los))
    (hne : ∀ s ∈ snapsUsed st metas, ∀ k : ℕ,
      st.box / maxComp sky.los * 2 ^ k ≠ 2 * (spanOf st sky s).buf) :
    ∃ c, buildCone st sky metas data bins = .ok c := by
  have hmax : 0 < maxComp sky.los := lt_of_lt_of_le (hpos 0) (le_maxComp _ _)
  have hin : 0 < st.box / maxComp sky.los := div_pos hbox hmax
  have key : ∀ s ∈ snapsUsed st metas, ∀ halos, ∃ t, tiling st sky (spanOf st sky s) halos = .ok t := by
    intro s hs halos
    have h1 : st.box / maxComp sky.los - 2 * (spanOf st sky s).buf ≠ 0 := by
      have := hne s hs 0
      rw [pow_zero, mul_one] at this
      exact sub_ne_zero.2 this
    unfold tiling
    have h2 : sliceCount (spanOf st sky s).use (st.box / maxComp sky.los) (spanOf st sky s).buf =
        .ok ⌈(spanOf st sky s).use / (st.box / maxComp sky.los - 2 * (spanOf st sky s).buf)⌉ := by
      unfold sliceCount
      rw [if_neg h1]
    simp only [h2]
    refine expand_total _ _ (huse s hs) _ _ h2 (fun k _ => hne s hs k) ?_
    refine lt_of_lt_of_le (hroom s hs) ?_
    rw [mul_comm]
    apply mul_le_mul_of_nonneg_left _ hin.le
    have := two_pow_doublings st.copiesMax
    exact_mod_cast this
  unfold buildCone
  generalize (⟨[], bins.map (fun z => (z, 0))⟩ : Cone K) = c0
  generalize snapsUsed st metas = l at key
  clear hne hroom huse
  induction l generalizing c0 with
  | nil => exact ⟨c0, rfl⟩
  | cons s rest ih =>
    unfold coneLoop
    obtain ⟨hs, hl⟩ := loaded_total st (data s.index)
    rw [hl]
    simp only
    obtain ⟨t, ht⟩ := key s List.mem_cons_self hs
    unfold snapSlices
    simp only [ht]
    exact ih _ (fun s' hs' => key s' (List.mem_cons_of_mem _ hs'))

theorem expand_zero_fails (buf : K) : ∀ (left : ℕ) (t t' : Tiling K),
    sliceCount 0 t.inBox buf = .ok t.iters → expand 0 buf left t ≠ .ok t' := by
  have hz : ∀ x n, sliceCount (0 : K) x buf = .ok n → n = 0 := by
    intro x n h
    unfold sliceCount at h
    split at h
    · cases h
    · simp only [Except.ok.injEq, zero_div, Int.ceil_zero] at h
      exact h.symm
  intro left
  induction left with
  | zero =>
    intro t t' h
    have h0 := hz _ _ h
    unfold expand
    rw [if_pos (by omega), if_pos (by omega)]
    intro h; cases h
  | succ left ih =>
    intro t t' h
    have h0 := hz _ _ h
    unfold expand
    rw [if_pos (by omega)]
    rcases h1 : sliceCount 0 (t.inBox * 2) buf with e | n
    · intro h; cases h
    · exact ih _ t' h1

/-- C68 is false: a snapshot that only touches the requested range makes every request fail. -/
theorem C68_touching_fails (st : Settings K) (sky : Sky K) (metas : List (SnapMeta K))
    (data : ℕ → SnapData K) (bins : List K) (s : SnapMeta K) (hs : s ∈ snapsUsed st metas)
    (h0 : (spanOf st sky s).use = 0) (c : Cone K) :
    buildCone st sky metas data bins ≠ .ok c := by
  intro h
  obtain ⟨parts, hps, hmade, -, -⟩ := buildCone_ok h
  rw [← hps] at hs
  obtain ⟨P, hP, rfl⟩ := List.mem_map.1 hs
  have ht := (hmade P hP).tiling
  unfold tiling at ht
  rw [h0] at ht
  simp only at ht
  rcases h1 : sliceCount 0 (st.box / maxComp sky.los) (spanOf st sky P.s).buf with e | n
  · rw [h1] at ht; cases ht
  · rw [h1] at ht
    exact expand_zero_fails _ _ _ P.t h1 ht

/-- C68: in particular requests whose lower redshift is the upper end of the range of some
snapshot. -/
theorem C68_boundary_fails (st : Settings K) (sky : Sky K) (metas : List (SnapMeta K))
    (data : ℕ → SnapData K) (bins : List K) (D : K → K) (hcons : Consistent st metas D)
    (s : SnapMeta K) (hs : s ∈ metas) (hz : st.zlo = s.zmax ∨ st.zhi = s.zmin) (c : Cone K) :
    buildCone st sky metas data bins ≠ .ok c := by
  have hr := hcons.range
  have hzr := hcons.zrange s hs
  have hmem : s ∈ snapsUsed st metas := by
    unfold snapsUsed
    rw [(Sim.sortByZ_perm _).mem_iff, List.mem_filter]
    refine ⟨hs, ?_⟩
    simp only [ge_iff_le, Bool.and_eq_true, decide_eq_true_eq]
    rcases hz with h | h
    · exact ⟨h.le, hzr.trans (h ▸ hr)⟩
    · exact ⟨hr.trans (h ▸ hzr), h.ge⟩
  refine C68_touching_fails st sky metas data bins s hmem ?_ c
  unfold Span.use spanOf
  simp only [hcons.dmin s hs, hcons.dmax s hs, hcons.dzmin, hcons.dzmax]
  have m1 := hcons.mono _ _ hr
  have m2 := hcons.mono _ _ hzr
  rcases hz with h | h
  · rw [h] at m1 ⊢
    rw [min_eq_left m1, max_eq_right m2, sub_self]
  · rw [h] at m1 ⊢
    rw [min_eq_right m2, max_eq_left m1, sub_self]

/-- C68 in full: a request for a range of redshifts covered by the simulation is fulfilled, if
the line of sight passed the test of the code. -/
def C68_full : Prop :=
  ∀ (st : Settings ℚ) (sky : Sky ℚ) (metas : List (SnapMeta ℚ)) (data : ℕ → SnapData ℚ)
    (bins : List ℚ) (D : ℚ → ℚ), Consistent st metas D → (∀ a, 0 < sky.los a) → 0 < st.box →
    st.zlo < st.zhi → 0 ≤ sky.bufCoef →
    (∀ s ∈ snapsUsed st metas, 10 < st.copiesMax * (st.box / maxComp sky.los) -
      2 * (spanOf st sky s).buf) →
    (∃ s ∈ metas, s.zmin ≤ st.zlo) → (∃ s ∈ metas, st.zhi ≤ s.zmax) →
    ∃ c, buildCone st sky metas data bins = .ok c

/-- C68 is false: a request from redshift 12, where the range of the first snapshot ends, fails. -/
theorem C68_full_false : ¬ C68_full := by
  intro h
  obtain ⟨c, hc⟩ := h (exSt 12) exSky exMetas (exData 10 15) exBins id
    (ex_consistent 12 (by norm_num)) ex_pos (by decide +kernel) (by decide +kernel)
    (by decide +kernel) (by decide +kernel) (by decide +kernel) (by decide +kernel)
  exact C68_boundary_fails (exSt 12) exSky exMetas (exData 10 15) exBins id
    (ex_consistent 12 (by norm_num)) exMetas[1] (List.getElem_mem _) (Or.inl (by decide +kernel)) c hc

/-- The hypotheses of C68 on the ranges and the room in the box, for a request from redshift 5. -/
example : (∀ s ∈ snapsUsed (exSt 5) exMetas, 0 < (spanOf (exSt 5) exSky s).use) ∧
    (∀ s ∈ snapsUsed (exSt 5) exMetas, 2 * (spanOf (exSt 5) exSky s).buf <
      (exSt 5).copiesMax * ((exSt 5).box / maxComp exSky.los)) := by
  decide +kernel

end Verif.LC
