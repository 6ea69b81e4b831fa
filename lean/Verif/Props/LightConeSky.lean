import Mathlib.Tactic.NormNum
import Mathlib.Analysis.SpecialFunctions.Trigonometric.Bounds
import Mathlib.Analysis.Real.Pi.Bounds
import Verif.Model.LightConeSky
import Verif.Props.LightCone

/-!
# Lines of sight: rotation (C29), angular limits (C67), completeness of lightcones (C66)
-/

set_option linter.unusedSectionVars false

namespace Verif.LC

open Verif.Sim (Err SnapMeta sortByZ getMassIndex)
open Matrix

theorem sumSq_pos {v : Vec ℝ} (h : 0 < v 0) : 0 < sumSq v := by
  unfold sumSq
  positivity

theorem unit_sumSq {v : Vec ℝ} (h : 0 < sumSq v) : sumSq (unit v) = 1 := by
  have hs : Real.sqrt (sumSq v) ^ 2 = sumSq v := Real.sq_sqrt h.le
  have h0 : Real.sqrt (sumSq v) ≠ 0 := (Real.sqrt_pos.2 h).ne'
  have : sumSq (unit v) = sumSq v / Real.sqrt (sumSq v) ^ 2 := by
    have e : ∀ a, unit v a = v a / Real.sqrt (sumSq v) := fun _ => rfl
    generalize Real.sqrt (sumSq v) = r at *
    unfold sumSq
    rw [e, e, e]
    field_simp
  rw [this, hs, div_self h.ne']

theorem unit_pos {v : Vec ℝ} (h : 0 < sumSq v) {a : Fin 3} (ha : 0 < v a) : 0 < unit v a :=
  div_pos ha (Real.sqrt_pos.2 h)

/-- The matrix of the code is the matrix with the three unit vectors as rows. -/
theorem losMatrix_eq {u : Vec ℝ} (hu : sumSq u = 1) (h0 : 0 < u 0) :
    ∃ s : ℝ, 0 < s ∧ s ^ 2 = u 0 ^ 2 + u 1 ^ 2 ∧
      losMatrix u = !![u 0, u 1, u 2; u 1 / s, -u 0 / s, 0; u 0 * u 2 / s, u 1 * u 2 / s, -s] := by
  have hq : 0 < u 0 ^ 2 + u 1 ^ 2 := by positivity
  refine ⟨Real.sqrt (u 0 ^ 2 + u 1 ^ 2), Real.sqrt_pos.2 hq, Real.sq_sqrt hq.le, ?_⟩
  generalize hsdef : Real.sqrt (u 0 ^ 2 + u 1 ^ 2) = s
  have hs : 0 < s := hsdef ▸ Real.sqrt_pos.2 hq
  have hs2 : s ^ 2 = u 0 ^ 2 + u 1 ^ 2 := hsdef ▸ Real.sq_sqrt hq.le
  have hsn : s ≠ 0 := hs.ne'
  have hc : cross u ![0, 0, 1] = ![u 1, -u 0, 0] := by
    unfold cross
    funext a
    fin_cases a <;> simp
  have hu2 : unit (cross u ![0, 0, 1]) = ![u 1 / s, -u 0 / s, 0] := by
    rw [hc]
    unfold unit
    have : Real.sqrt (sumSq ![u 1, -u 0, 0]) = s := by
      rw [← hsdef]
      congr 1
      simp [sumSq]
      ring
    rw [this]
    funext a
    fin_cases a <;> simp
  have hu3 : cross u ![u 1 / s, -u 0 / s, 0] = ![u 0 * u 2 / s, u 1 * u 2 / s, -s] := by
    unfold cross
    funext a
    fin_cases a
    · simp; ring
    · simp; ring
    · simp
      field_simp
      linarith
  have hsum : u 0 ^ 2 + u 1 ^ 2 + u 2 ^ 2 = 1 := hu
  have horth : (Matrix.of ![u, ![u 1 / s, -u 0 / s, 0], ![u 0 * u 2 / s, u 1 * u 2 / s, -s]]) *
      (Matrix.of ![u, ![u 1 / s, -u 0 / s, 0], ![u 0 * u 2 / s, u 1 * u 2 / s, -s]])ᵀ = 1 := by
    ext i j
    rw [Matrix.mul_apply, Fin.sum_univ_three]
    fin_cases i <;> fin_cases j <;> simp
    · linarith
    · field_simp; ring
    · field_simp
      have : u 0 ^ 2 + u 1 ^ 2 + -s ^ 2 = 0 := by linarith
      rw [this]
      ring
    · field_simp; ring
    · field_simp; linarith
    · field_simp; ring
    · field_simp
      have : u 0 ^ 2 + u 1 ^ 2 + -s ^ 2 = 0 := by linarith
      rw [this]
      ring
    · field_simp; ring
    · field_simp
      have e : u 2 ^ 2 = 1 - s ^ 2 := by linarith
      nlinarith [e, hs2]
  unfold losMatrix
  simp only
  rw [hu2, hu3, Matrix.inv_eq_left_inv horth]
  ext i j
  fin_cases i <;> fin_cases j <;> simp

/-- C29: for every drawn direction and position angle, the matrices computed by the code turn the
line of sight into the first axis and are rotations. -/
theorem C29_rotation (radius : ℝ) (start : Vec ℝ) (flips : Fin 3 → ℤ) (θ : ℝ) (v : Vec ℝ)
    (hv : 0 < v 0) :
    let sky := skyOf radius start flips θ v
    sky.losM *ᵥ sky.los = ![1, 0, 0] ∧ sky.paM *ᵥ ![1, 0, 0] = ![1, 0, 0] ∧
      Spec.IsRotation (sky.paM * sky.losM) := by
  have hp := sumSq_pos hv
  have hu := unit_sumSq hp
  have hsum : unit v 0 ^ 2 + unit v 1 ^ 2 + unit v 2 ^ 2 = 1 := hu
  have h0 := unit_pos hp hv
  obtain ⟨s, hs, hs2, hm⟩ := losMatrix_eq hu h0
  have hsn : s ≠ 0 := hs.ne'
  simp only [skyOf]
  generalize hue : unit v = u at *
  refine ⟨?_, ?_, ?_, ?_⟩
  · rw [hm]
    funext a
    fin_cases a
    · simp [Matrix.mulVec, dotProduct, Fin.sum_univ_three]
      linarith
    · simp [Matrix.mulVec, dotProduct, Fin.sum_univ_three]
      ring
    · simp [Matrix.mulVec, dotProduct, Fin.sum_univ_three]
      have e : u 0 * u 2 / s * u 0 + u 1 * u 2 / s * u 1 + -(s * u 2) =
          u 2 * (u 0 ^ 2 + u 1 ^ 2 - s ^ 2) / s := by
        field_simp
        ring
      rw [e, ← hs2]
      simp
  · funext a
    fin_cases a <;> simp [paMatrix, Matrix.mulVec, dotProduct, Fin.sum_univ_three]
  · have hl : losMatrix u * (losMatrix u)ᵀ = 1 := by
      rw [hm]
      ext i j
      rw [Matrix.mul_apply, Fin.sum_univ_three]
      fin_cases i <;> fin_cases j <;> simp
      · linarith
      · field_simp; ring
      · field_simp
        have : u 0 ^ 2 + u 1 ^ 2 + -s ^ 2 = 0 := by linarith
        rw [this]
        ring
      · field_simp; ring
      · field_simp; linarith
      · field_simp; ring
      · field_simp
        have : u 0 ^ 2 + u 1 ^ 2 + -s ^ 2 = 0 := by linarith
        rw [this]
        ring
      · field_simp; ring
      · field_simp
        have e : u 2 ^ 2 = 1 - s ^ 2 := by linarith
        nlinarith [e, hs2]
    have hq : paMatrix θ * (paMatrix θ)ᵀ = 1 := by
      have := Real.sin_sq_add_cos_sq θ
      ext i j
      rw [Matrix.mul_apply, Fin.sum_univ_three]
      fin_cases i <;> fin_cases j <;> simp [paMatrix] <;> nlinarith
    rw [Matrix.transpose_mul, Matrix.mul_assoc, ← Matrix.mul_assoc (losMatrix u), hl,
      Matrix.one_mul, hq]
  · rw [Matrix.det_mul, hm]
    have h1 : (paMatrix θ).det = 1 := by
      have := Real.sin_sq_add_cos_sq θ
      rw [Matrix.det_fin_three]
      simp [paMatrix]
      nlinarith
    rw [h1, Matrix.det_fin_three]
    simp
    field_simp
    have e : u 2 ^ 2 = 1 - s ^ 2 := by linarith
    nlinarith [e, hs2]

/-- C29, for the lightcones the code builds: every object is a rotated periodic image of the halo
it is linked to, for every accepted direction, position angle, mirroring and start. -/
theorem C29_lightcone (st : Settings ℝ) (radius : ℝ) (start : Vec ℝ) (flips : Fin 3 → ℤ) (θ : ℝ)
    (v : Vec ℝ) (hv : 0 < v 0) (metas : List (SnapMeta ℝ))
    (data : ℕ → SnapData ℝ) (bins : List ℝ) (c : Cone ℝ)
    (h : buildCone st (skyOf radius start flips θ v) metas data bins = .ok c) :
    ∃ rot, Spec.IsRotation rot ∧ rot *ᵥ unit v = ![1, 0, 0] ∧ ∀ r ∈ c.rows,
      ∃ s ∈ metas, r.snap = s.index ∧ ∃ halo, (data s.index).halos[r.index]? = some halo ∧
      r.mass = halo.mass ∧
      Spec.IsImage st.box rot flips start halo.pos ![r.posZ, r.posX, r.posY] := by
  obtain ⟨h1, h2, h3⟩ := C29_rotation radius start flips θ v hv
  refine ⟨_, h3, ?_, fun r hr => C29_image st _ metas data bins c h h1 h2 r hr⟩
  rw [← Matrix.mulVec_mulVec]
  exact (congrArg _ h1).trans h2

/-! ## C67: the angular limits of the line of sight -/

/-- The limits a drawn direction is checked against. -/
def WithinLimits (radius : ℝ) (v : Vec ℝ) : Prop := testA radius v ∧ testB radius v

/-- C67 in full: the direction chosen is within both limits. -/
def C67_full : Prop :=
  ∀ (radius box dist : ℝ) (copiesMax : ℕ) (draws : List (Vec ℝ)) (v : Vec ℝ),
    0 < radius → 0 < box → 0 < dist → (∀ w ∈ draws, ∀ a, 0 ≤ w a ∧ w a < 1) →
    pickLos radius box dist copiesMax false false draws = some v → WithinLimits radius v

/-- C67: the direction chosen is one of those drawn, and the box has room for the lightcone. -/
theorem C67_room_partial (radius box dist : ℝ) (copiesMax : ℕ) (draws : List (Vec ℝ)) (v : Vec ℝ)
    (a b : Bool) (h : pickLos radius box dist copiesMax a b draws = some v) :
    v ∈ draws ∧ testGeom radius box dist copiesMax v := by
  induction draws generalizing a b with
  | nil => simp [pickLos] at h
  | cons w rest ih =>
    unfold pickLos at h
    simp only at h
    split at h
    · split at h
      · rename_i hg
        simp only [Option.some.injEq] at h
        subst h
        exact ⟨List.mem_cons_self, hg⟩
      · have := ih _ _ h
        exact ⟨List.mem_cons_of_mem _ this.1, this.2⟩
    · have := ih _ _ h
      exact ⟨List.mem_cons_of_mem _ this.1, this.2⟩

/-- C67: if the first draw passes one test, a second one passing only the other is accepted. -/
theorem C67_flags_kept (radius box dist : ℝ) (copiesMax : ℕ) (v w : Vec ℝ) (rest : List (Vec ℝ))
    (hv : testA radius v) (hv' : ¬ testB radius v) (hw : testB radius w)
    (hg : testGeom radius box dist copiesMax w) :
    pickLos radius box dist copiesMax false false (v :: w :: rest) = some w := by
  unfold pickLos
  simp only [hv, hv', decide_true, decide_false, Bool.false_or, Bool.and_false, Bool.false_eq_true,
    if_false]
  unfold pickLos
  simp [hw, hg]

theorem tan_lt {x y : ℝ} (h1 : -(Real.pi / 2) < x) (h2 : y < Real.pi / 2) (h : x < y) :
    Real.tan x < Real.tan y :=
  Real.tan_lt_tan_of_lt_of_lt_pi_div_two h1 h2 h

theorem arctan_div_pos {a b : ℝ} (ha : 0 < a) (hb : 0 < b) : 0 < Real.arctan (a / b) := by
  rw [← Real.arctan_zero]
  exact Real.arctan_strictMono (div_pos ha hb)

theorem minAngle_pos {u : Vec ℝ} (h : ∀ a, 0 < u a) : 0 < minAngle u := by
  unfold minAngle
  simp only [lt_min_iff]
  refine ⟨⟨⟨?_, ?_⟩, ?_⟩, ⟨?_, ?_⟩, ?_⟩ <;> exact arctan_div_pos (h _) (h _)

theorem minAngle_lt (u : Vec ℝ) : minAngle u < Real.pi / 2 := by
  unfold minAngle
  exact lt_of_le_of_lt ((min_le_left _ _).trans ((min_le_left _ _).trans (min_le_left _ _)))
    (Real.arctan_lt_pi_div_two _)

theorem sin_minAngle_pos {u : Vec ℝ} (h : ∀ a, 0 < u a) : 0 < Real.sin (minAngle u) :=
  Real.sin_pos_of_pos_of_lt_pi (minAngle_pos h) (by linarith [minAngle_lt u, Real.pi_pos])

/-- The second draw of the counterexample: its first two components are too different. -/
noncomputable def exDraw : Vec ℝ := ![4/5, 2/5, 4/5]

/-- C67 is false: with an opening radius of 10 degrees, a direction is accepted whose tangent 2
exceeds the limit tan 59°, because an earlier, rejected draw passed that test. -/
theorem C67_full_false : ¬ C67_full := by
  intro h
  have hpi := Real.pi_pos
  have t45 := Real.tan_pi_div_four
  have hdp : ∀ a, 0 < exDraw a := by
    intro a
    unfold exDraw
    fin_cases a <;> simp
  have hup : ∀ a, 0 < unit exDraw a := fun a => unit_pos (sumSq_pos (hdp 0)) (hdp a)
  have hsin := sin_minAngle_pos hup
  have hmax : 0 < maxComp (unit exDraw) := lt_of_lt_of_le (hup 0) (le_maxComp _ _)
  have hbp : 0 < bufferCoef (Real.pi / 18) (unit exDraw) := by
    unfold bufferCoef
    have : 0 < Real.tan (Real.pi / 18) := Real.tan_pos_of_pos_of_lt_pi_div_two (by linarith) (by linarith)
    positivity
  have hg : testGeom (Real.pi / 18) ((11 + 2 * (bufferCoef (Real.pi / 18) (unit exDraw) * 1000)) *
      maxComp (unit exDraw)) 1000 1 exDraw := by
    refine ⟨hsin.ne', ?_⟩
    rw [mul_div_assoc, div_self hmax.ne']
    push_cast
    linarith
  have hpick := C67_flags_kept (Real.pi / 18) _ 1000 1 ![1/2, 1/2, 0] exDraw [] (by
      refine ⟨by simp, ?_, ?_⟩
      · have := tan_lt (x := Real.pi / 18 + Real.pi / 180) (y := Real.pi / 4) (by linarith)
          (by linarith) (by linarith)
        rw [t45] at this
        simpa using this
      · have := tan_lt (x := Real.pi / 4) (y := Real.pi / 2 - 3 * (Real.pi / 18) - Real.pi / 180)
          (by linarith) (by linarith) (by linarith)
        rw [t45] at this
        simpa using this)
    (by rintro ⟨h1, -⟩; simp at h1)
    (by
      refine ⟨by simp [exDraw], ?_, ?_⟩
      · have := tan_lt (x := 3 * (Real.pi / 18)) (y := Real.pi / 4) (by linarith)
          (by linarith) (by linarith)
        rw [t45] at this
        simpa [exDraw] using this
      · have := tan_lt (x := Real.pi / 4) (y := Real.pi / 2 - 3 * (Real.pi / 18))
          (by linarith) (by linarith) (by linarith)
        rw [t45] at this
        simpa [exDraw] using this) hg
  have hlim := h (Real.pi / 18) _ 1000 1 _ _ (by positivity) (by positivity) (by norm_num) (by
      intro w hw a
      simp only [List.mem_cons, List.not_mem_nil, or_false] at hw
      rcases hw with rfl | rfl
      · fin_cases a <;> simp <;> norm_num
      · unfold exDraw
        fin_cases a <;> simp <;> norm_num) hpick
  have h2 := hlim.1.2.2
  have h60 := tan_lt (x := Real.pi / 2 - 3 * (Real.pi / 18) - Real.pi / 180) (y := Real.pi / 3)
    (by linarith) (by linarith) (by linarith)
  rw [Real.tan_pi_div_three] at h60
  have h3 : Real.sqrt 3 < 2 := by
    rw [Real.sqrt_lt' (by norm_num)]
    norm_num
  have h4 : exDraw 0 / exDraw 1 = 2 := by
    simp [exDraw]
    norm_num
  rw [h4] at h2
  linarith

/-! ## C66: a lightcone contains every image inside its geometry -/

/-- C66 in full, for circular lightcones in a flat universe: every periodic image of a halo read
from a snapshot that lies in front of the observer, inside the aperture and in the range of
distances of the snapshot is in the lightcone. -/
def C66_full : Prop :=
  ∀ (st : Settings ℝ) (start : Vec ℝ) (flips : Fin 3 → ℤ) (θ : ℝ) (v : Vec ℝ)
    (metas : List (SnapMeta ℝ)) (data : ℕ → SnapData ℝ) (bins : List ℝ) (c : Cone ℝ) (D : ℝ → ℝ)
    (far : ℝ),
    st.mode = .circle → 0 < st.angle → st.root = Real.sqrt → 0 < st.box →
    (∀ a, 0 ≤ start a ∧ start a < st.box) → (∀ a, flips a = 1 ∨ flips a = -1) →
    (∀ a, 0 < v a ∧ v a < 1) → WithinLimits (st.angle / 2) v →
    (∀ s ∈ metas, s.tdmax = s.dmax ∧ s.tdmax ≤ far) →
    testGeom (st.angle / 2) st.box far st.copiesMax v →
    Consistent st metas D → (metas.map (·.index)).Nodup →
    buildCone st (skyOf (st.angle / 2) start flips θ v) metas data bins = .ok c →
    ∀ s ∈ metas, ∀ halos, loaded st (data s.index) = .ok halos →
    ∀ (n : ℕ) (halo : Halo ℝ), halos[n]? = some halo →
    ∀ w : Vec ℝ, Spec.IsImage st.box (paMatrix θ * losMatrix (unit v)) flips start halo.pos w →
      Spec.InCircle st.angle (Real.sqrt (w 0 ^ 2 + w 1 ^ 2 + w 2 ^ 2))
        (Real.sqrt (w 1 ^ 2 + w 2 ^ 2)) (w 0) →
      max s.dmin st.dzmin ≤ Real.sqrt (w 0 ^ 2 + w 1 ^ 2 + w 2 ^ 2) →
      Real.sqrt (w 0 ^ 2 + w 1 ^ 2 + w 2 ^ 2) < min s.dmax st.dzmax →
      ∃ r ∈ c.rows, r.snap = s.index ∧ r.index = n ∧ ![r.posZ, r.posX, r.posY] = w

namespace Missed

/-- A lightcone of radius 0.1 between the distances 900 and 1000 in a box of 3000. -/
noncomputable def st : Settings ℝ where
  box := 3000
  h := 1
  mode := .circle
  angle := 1 / 5
  aspect := 1
  zlo := 900
  zhi := 1000
  dzmin := 900
  dzmax := 1000
  minMass := 1
  copiesMax := 1
  root := Real.sqrt
  assignZ := id

/-- Its only snapshot. -/
noncomputable def snap : SnapMeta ℝ where
  index := 0
  redshift := 950
  zmin := 900
  zmax := 1000
  tstart := 0
  tend := 0
  dmin := 900
  dmax := 1000
  tdmin := 900
  tdmax := 1000

/-- The drawn direction. -/
noncomputable def draw : Vec ℝ := ![1/4, 1/2, 1/2]

theorem unit_draw : unit draw = ![1/3, 2/3, 2/3] := by
  have : Real.sqrt (sumSq draw) = 3 / 4 := by
    have e : sumSq draw = (3 / 4) ^ 2 := by
      simp [sumSq, draw]
      norm_num
    rw [e, Real.sqrt_sq (by norm_num)]
  unfold unit
  rw [this]
  funext a
  fin_cases a <;> simp [draw] <;> norm_num

/-- The position of the halo: at a distance 900 from the observer, at an angle of 0.09503 from the
line of sight. -/
noncomputable def pos : Vec ℝ := fun a =>
  900 * (440 / 442) * (![1/3, 2/3, 2/3] : Vec ℝ) a + 900 * (42 / 442) * (![-14/15, 2/15, 1/3] : Vec ℝ) a

noncomputable def data : ℕ → SnapData ℝ := fun _ => ⟨[(2, 0), (1/2, 1)], [⟨1, pos⟩]⟩

theorem tan_small {x : ℝ} (h0 : 0 ≤ x) (h1 : x ≤ 7 / 20) : Real.tan x ≤ 2 / 5 := by
  have hc := Real.one_sub_sq_div_two_le_cos (x := x)
  have hs := Real.sin_le h0
  have hc2 : 93 / 100 ≤ Real.cos x := by nlinarith
  rw [Real.tan_eq_sin_div_cos, div_le_iff₀ (by linarith)]
  linarith

theorem tan_tenth : Real.tan (1 / 10) ≤ 101 / 1000 := by
  have hc := Real.one_sub_sq_div_two_le_cos (x := 1 / 10)
  have hs := Real.sin_le (x := 1 / 10) (by norm_num)
  rw [Real.tan_eq_sin_div_cos, div_le_iff₀ (by linarith)]
  linarith

theorem sin_min : 4 / 9 ≤ Real.sin (minAngle ![1/3, 2/3, 2/3]) := by
  have h1 : Real.arctan (1 / 2) ≤ minAngle ![1/3, 2/3, 2/3] := by
    unfold minAngle
    simp only [le_min_iff]
    refine ⟨⟨⟨?_, ?_⟩, ?_⟩, ⟨?_, ?_⟩, ?_⟩ <;> apply Real.arctan_strictMono.monotone <;> simp <;>
      norm_num
  have h2 : Real.sin (Real.arctan (1 / 2)) ≤ Real.sin (minAngle ![1/3, 2/3, 2/3]) := by
    apply Real.sin_le_sin_of_le_of_le_pi_div_two _ (minAngle_lt _).le h1
    exact (Real.neg_pi_div_two_lt_arctan _).le
  refine le_trans ?_ h2
  rw [Real.sin_arctan]
  have h3 : Real.sqrt (1 + (1 / 2) ^ 2) ≤ 9 / 8 := by
    rw [Real.sqrt_le_left (by norm_num)]
    norm_num
  have h4 : 0 < Real.sqrt (1 + (1 / 2) ^ 2) := Real.sqrt_pos.2 (by norm_num)
  rw [le_div_iff₀ h4]
  linarith

theorem coef_pos : 0 < bufferCoef (1 / 10) ![1/3, 2/3, 2/3] := by
  unfold bufferCoef
  have h1 := sin_min
  have h2 : 0 < Real.tan (1 / 10) :=
    Real.tan_pos_of_pos_of_lt_pi_div_two (by norm_num) (by linarith [Real.pi_gt_three])
  have h3 : 0 < Real.sin (minAngle ![1/3, 2/3, 2/3]) := by linarith
  positivity

theorem coef_le : bufferCoef (1 / 10) ![1/3, 2/3, 2/3] ≤ 23 / 100 := by
  unfold bufferCoef
  have h1 := sin_min
  have h2 := tan_tenth
  rw [div_le_iff₀ (by linarith)]
  linarith

/-- The line of sight and the start point of the lightcone. -/
noncomputable def sky : Sky ℝ := skyOf (1 / 10) (fun _ => 0) (fun _ => 1) 0 draw

theorem buf_eq : (spanOf st sky snap).buf = 1000 * bufferCoef (1 / 10) ![1/3, 2/3, 2/3] := by
  simp only [spanOf, sky, skyOf, unit_draw, snap]

theorem start_eq : (spanOf st sky snap).start = 900 := by
  simp [spanOf, snap, st]

theorem stop_eq : (spanOf st sky snap).stop = 1000 := by
  simp [spanOf, snap, st]

theorem loaded_eq : loaded st (data 0) = .ok [⟨1, pos⟩] := by
  unfold loaded data
  have : getMassIndex [((2 : ℝ), 0), (1/2, 1)] st.h st.minMass false = .ok 1 := by
    unfold getMassIndex st
    norm_num [List.filter, Sim.pyIndex]
  simp only [this]
  simp [finalCount, st]

theorem maxComp_los : maxComp sky.los = 2 / 3 := by
  simp only [sky, skyOf, unit_draw]
  unfold maxComp
  simp
  norm_num

theorem tiling_eq : tiling st sky (spanOf st sky snap) [⟨1, pos⟩] =
    .ok ⟨[pos], 3000, 4500, 1⟩ := by
  have hb := buf_eq
  have h1 := coef_pos
  have h2 := coef_le
  have hin : st.box / maxComp sky.los = 4500 := by
    rw [maxComp_los]
    norm_num [st]
  have hs : sliceCount (spanOf st sky snap).use 4500 (spanOf st sky snap).buf = .ok 1 := by
    unfold sliceCount Span.use
    rw [start_eq, stop_eq, hb, if_neg (by linarith)]
    congr 1
    rw [Int.ceil_eq_iff]
    have hp : 0 < 4500 - 2 * (1000 * bufferCoef (1 / 10) ![1/3, 2/3, 2/3]) := by linarith
    constructor
    · norm_num
      linarith
    · rw [div_le_iff₀ hp]
      push_cast
      linarith
  unfold tiling
  simp only [hin, hs]
  rw [show doublings st.copiesMax = 0 from rfl]
  unfold expand
  norm_num [st]

theorem used_eq : snapsUsed st [snap] = [snap] := by
  unfold snapsUsed
  have : (decide (st.zlo ≤ snap.zmax) && decide (st.zhi ≥ snap.zmin)) = true := by
    norm_num [st, snap]
  rw [List.filter_cons_of_pos (p := fun s : SnapMeta ℝ => decide (st.zlo ≤ s.zmax) && decide (st.zhi ≥ s.zmin))
    this]
  rfl

theorem built : ∃ c, buildCone st sky [snap] data [] = .ok c := by
  unfold buildCone
  rw [used_eq]
  unfold coneLoop
  have : loaded st (data snap.index) = .ok [⟨1, pos⟩] := loaded_eq
  rw [this]
  simp only [snapSlices, tiling_eq]
  exact ⟨_, rfl⟩

theorem limits : WithinLimits (1 / 10) draw := by
  have hpi := Real.pi_gt_three
  have hpi2 := Real.pi_lt_four
  have t45 := Real.tan_pi_div_four
  have hd : draw 0 / draw 1 = 1 / 2 ∧ draw 0 / draw 2 = 1 / 2 := by
    constructor <;> simp [draw] <;> norm_num
  refine ⟨⟨by simp [draw], ?_, ?_⟩, ⟨by simp [draw], ?_, ?_⟩⟩
  · rw [hd.1]
    have := tan_small (x := 1 / 10 + Real.pi / 180) (by linarith) (by linarith)
    linarith
  · rw [hd.1]
    have := tan_lt (x := Real.pi / 4) (y := Real.pi / 2 - 3 * (1 / 10) - Real.pi / 180)
      (by linarith) (by linarith) (by linarith)
    linarith
  · rw [hd.2]
    have := tan_small (x := 3 * (1 / 10)) (by norm_num) (by norm_num)
    linarith
  · rw [hd.2]
    have := tan_lt (x := Real.pi / 4) (y := Real.pi / 2 - 3 * (1 / 10))
      (by linarith) (by linarith) (by linarith)
    linarith

theorem geom : testGeom (1 / 10) 3000 1000 1 draw := by
  have h1 := sin_min
  have h2 := coef_le
  refine ⟨?_, ?_⟩
  · rw [unit_draw]
    linarith
  · have := maxComp_los
    simp only [sky, skyOf] at this
    rw [this, unit_draw]
    norm_num
    linarith

theorem consistent : Consistent st [snap] id where
  mono := fun _ _ h => h
  dzmin := rfl
  dzmax := rfl
  range := by norm_num [st]
  dmin := by intro s hs; rw [List.mem_singleton.1 hs]; rfl
  dmax := by intro s hs; rw [List.mem_singleton.1 hs]; rfl
  zrange := by intro s hs; rw [List.mem_singleton.1 hs]; norm_num [snap]
  apart := by
    intro s hs s' hs' h
    rw [List.mem_singleton.1 hs, List.mem_singleton.1 hs'] at h
    exact absurd h (lt_irrefl _)
  distinct := by simp

theorem sumSq_rot {m : Mat ℝ} (h : Spec.IsRotation m) (u : Vec ℝ) :
    sumSq (m *ᵥ u) = sumSq u := by
  have e : ∀ w : Vec ℝ, sumSq w = w ⬝ᵥ w := by
    intro w
    unfold sumSq
    rw [dotProduct, Fin.sum_univ_three]
    ring
  rw [e, e, Matrix.dotProduct_mulVec, Matrix.vecMul_mulVec, mul_eq_one_comm.1 h.1,
    Matrix.vecMul_one]

end Missed

open Missed in
/-- C66 is false: the halo `pos`, which lies well inside the lightcone, is not in it. -/
theorem C66_full_false : ¬ C66_full := by
  intro h
  obtain ⟨c, hc⟩ := Missed.built
  obtain ⟨h1, h2, h3⟩ := C29_rotation (1 / 10) (fun _ => 0) (fun _ => 1) 0 draw (by norm_num [draw])
  have hfirst : ((sky.paM * sky.losM) *ᵥ pos) 0 = 900 * (440 / 442) := by
    refine (first_component (sky := sky) ⟨h1, h2⟩ h3 pos).trans ?_
    simp only [sky, skyOf, unit_draw, pos]
    simp
    norm_num
  have hlen : sumSq ((sky.paM * sky.losM) *ᵥ pos) = 900 ^ 2 := by
    have := sumSq_rot h3 pos
    refine this.trans ?_
    simp [sumSq, pos]
    norm_num
  have hang : st.angle / 2 = 1 / 10 := by norm_num [st]
  generalize hw : (sky.paM * sky.losM) *ᵥ pos = w at hfirst hlen
  have hlen' : w 0 ^ 2 + w 1 ^ 2 + w 2 ^ 2 = 900 ^ 2 := hlen
  have hr1 : Real.sqrt (w 0 ^ 2 + w 1 ^ 2 + w 2 ^ 2) = 900 := by
    rw [hlen', Real.sqrt_sq (by norm_num)]
  have hr2 : Real.sqrt (w 1 ^ 2 + w 2 ^ 2) = 900 * (42 / 442) := by
    have : w 1 ^ 2 + w 2 ^ 2 = (900 * (42 / 442)) ^ 2 := by
      rw [hfirst] at hlen'
      norm_num at hlen' ⊢
      linarith
    rw [this, Real.sqrt_sq (by norm_num)]
  have himg : pos = fun a => (((fun _ => 1 : Fin 3 → ℤ) a : ℤ) : ℝ) * pos a - (fun _ => (0 : ℝ)) a
      + 3000 * (((fun _ => 0 : Fin 3 → ℤ) a : ℤ) : ℝ) := by
    funext a
    simp
  have hrow := h st (fun _ => 0) (fun _ => 1) 0 draw [snap] data [] c id 1000 rfl
    (by norm_num [st]) rfl (by norm_num [st]) (by norm_num [st]) (by simp)
    (by intro a; fin_cases a <;> simp [draw] <;> norm_num) (by rw [hang]; exact limits)
    (by intro s hs; rw [List.mem_singleton.1 hs]; norm_num [snap]) (by rw [hang]; exact geom)
    consistent (by simp) (by rw [hang]; exact hc) snap (by simp) _ loaded_eq 0 ⟨1, pos⟩ rfl w
    ⟨fun _ => 0, by rw [← hw]; exact congrArg _ himg⟩
    ⟨by rw [hfirst]; norm_num, by rw [hr1, hr2, hang]; norm_num⟩
    (by rw [hr1]; norm_num [snap, st]) (by rw [hr1]; norm_num [snap, st])
  have hsees : Sees st w := by
    refine ⟨?_, ?_⟩
    · rw [show st.root = Real.sqrt from rfl, hr1]
      norm_num
    · show Real.sqrt _ / Real.sqrt _ < _
      rw [hr1, hr2, hang]
      norm_num
  have hfit := (C66_iff st sky [snap] data [] c id hc consistent (by simp) (by norm_num [st])
    h1 h2 h3 (by intro a; left; rfl) snap (by rw [used_eq]; simp) _ loaded_eq _ tiling_eq
    0 ⟨1, pos⟩ rfl (fun _ => 0) pos w himg hw.symm hsees 0 (by simp)
    (by
      unfold sliceMin advance
      rw [start_eq, show st.root = Real.sqrt from rfl, hr1]
      simp)
    (by
      unfold sliceMax advance Span.use
      rw [start_eq, stop_eq, show st.root = Real.sqrt from rfl, hr1]
      norm_num)).1 hrow
  have hbad := (hfit 0).1
  have h0 : sky.los 0 = 1 / 3 := by
    simp only [sky, skyOf, unit_draw]
    rfl
  have hp : pos 0 = 900 * (440 / 442) * (1 / 3) + 900 * (42 / 442) * (-14 / 15) := by
    unfold pos
    rfl
  have hadv : advance (spanOf st sky snap) (1 : ℤ) 0 = 0 := by
    unfold advance
    simp
  rw [h0, hp, start_eq, buf_eq] at hbad
  simp only [hadv] at hbad
  have := coef_le
  norm_num at hbad
  linarith

end Verif.LC
