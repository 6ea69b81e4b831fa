import Verif.Spec.Response
import Verif.Props.GridSpectral
import Mathlib.Algebra.BigOperators.Intervals
import Mathlib.Order.Interval.Finset.Nat
import Mathlib.Tactic.Linarith
import Mathlib.Tactic.FieldSimp

/-!
# C104: responses and noise of detectors
-/

set_option linter.unusedSectionVars false

namespace Verif.Inst

open Spec

/-! ## Beams -/

theorem exp_bells (wx wy u v : ℝ) :
    Real.exp (-4 * Real.log 2 * (u ^ 2 / wx ^ 2 + v ^ 2 / wy ^ 2)) = Map.Spec.bell wx u * Map.Spec.bell wy v := by
  unfold Map.Spec.bell
  rw [Real.rpow_def_of_pos (by norm_num), Real.rpow_def_of_pos (by norm_num), ← Real.exp_add, one_div, Real.log_inv]
  congr 1
  rw [div_pow, div_pow]
  ring

theorem checkShape_numbers (a : AxisArg) (l : List ℝ) (h : numbers a = some l) : checkShape a = .ok l := by
  cases a <;> simp [numbers] at h <;> subst h <;> rfl

theorem checkThree_numbers (dx dy freq : AxisArg) (x y f : List ℝ) (hx : numbers dx = some x)
    (hy : numbers dy = some y) (hf : numbers freq = some f) : checkThree dx dy freq = .ok (x, y, f) := by
  simp [checkThree, checkShape_numbers _ _ hx, checkShape_numbers _ _ hy, checkShape_numbers _ _ hf]

theorem outer_tabulates (x y f : List ℝ) (v : ℝ → ℝ → ℝ → ℝ) : Tabulates (outer x y f v) x y f v := by
  refine ⟨rfl, ?_⟩
  intro i j k a b c h1 h2 h3
  simp [outer, List.getD_eq_getElem?_getD, h1, h2, h3]

/-- **C104**: `gauss_psf` gives one value for each position and each frequency: that of a Gaussian beam of the given
widths around the given centre, at each frequency the same. -/
theorem C104_beam (dx dy freq : AxisArg) (x y f : List ℝ) (hx : numbers dx = some x) (hy : numbers dy = some y)
    (hf : numbers freq = some f) (o : BeamArgs) (_h1 : o.fwhmx ≠ 0) (_h2 : o.fwhmy ≠ 0) :
    ∃ r, gaussPsf dx dy freq o = .ok r ∧ Tabulates r x y f (fun a b _ => beam o o.fwhmx o.fwhmy a b) := by
  refine ⟨_, by unfold gaussPsf; rw [checkThree_numbers _ _ _ _ _ _ hx hy hf], ?_⟩
  have := outer_tabulates x y f (fun a b _ => beam o o.fwhmx o.fwhmy a b)
  convert this using 2
  funext a b c
  rw [mul_one, exp_bells]
  rfl

/-- **C104**: what the widths mean: the beam is one in its centre and one half at the distance of half the width along
each axis; it is the same at opposite positions, and less than one elsewhere. -/
theorem C104_beam_width (o : BeamArgs) (wx wy : ℝ) (h1 : 0 < wx) (h2 : 0 < wy) :
    beam o wx wy o.cx o.cy = 1 ∧ beam o wx wy (o.cx + wx / 2) o.cy = 1 / 2 ∧
    beam o wx wy (o.cx - wx / 2) o.cy = 1 / 2 ∧ beam o wx wy o.cx (o.cy + wy / 2) = 1 / 2 ∧
    beam o wx wy o.cx (o.cy - wy / 2) = 1 / 2 ∧
    (∀ u v, beam o wx wy (o.cx - u) (o.cy - v) = beam o wx wy (o.cx + u) (o.cy + v)) ∧
    ∀ x y, (x, y) ≠ (o.cx, o.cy) → beam o wx wy x y < 1 := by
  obtain ⟨a0, a1, a2, a3⟩ := Map.C101_width wx h1
  obtain ⟨b0, b1, b2, b3⟩ := Map.C101_width wy h2
  have e : ∀ c d : ℝ, c - d - c = -d := by intros; ring
  refine ⟨?_, ?_, ?_, ?_, ?_, ?_, ?_⟩
  · simp [beam, a0, b0]
  · simp only [beam, add_sub_cancel_left, sub_self, a1, b0, mul_one]
  · simp only [beam, e, sub_self, a2, b0, mul_one]
  · simp only [beam, add_sub_cancel_left, sub_self, b1, a0, one_mul]
  · simp only [beam, e, sub_self, b2, a0, one_mul]
  · intro u v
    simp only [beam, e, add_sub_cancel_left, Map.bell_neg]
  · intro x y h
    by_cases hx : x = o.cx
    · have hy : y - o.cy ≠ 0 := fun h' => h (by rw [hx, sub_eq_zero.1 h'])
      have := b3 0 (y - o.cy) (by simpa using hy)
      rw [b0] at this
      calc beam o wx wy x y ≤ 1 * Map.Spec.bell wy (y - o.cy) :=
            mul_le_mul_of_nonneg_right (Map.bell_le_one _ _) (Map.bell_pos _ _).le
        _ < 1 := by rwa [one_mul]
    · have hx : x - o.cx ≠ 0 := sub_ne_zero.2 hx
      have := a3 0 (x - o.cx) (by simpa using hx)
      rw [a0] at this
      calc beam o wx wy x y ≤ Map.Spec.bell wx (x - o.cx) * 1 :=
            mul_le_mul_of_nonneg_left (Map.bell_le_one _ _) (Map.bell_pos _ _).le
        _ < 1 := by rwa [mul_one]

theorem widthAt_eq (w f f0 e : ℝ) (hf : 0 < f) (h0 : 0 < f0) : widthAt w f f0 e = w * (f0 / f) ^ e := by
  unfold widthAt
  rw [Real.rpow_neg (by positivity), ← Real.inv_rpow (by positivity), inv_div]

/-- **C104**: `gauss_psf_freq_dependent` gives the beam whose widths at each frequency are the given ones times the
documented factor `(freq0/freq)^freq_exp`. -/
theorem C104_scaling (dx dy freq : AxisArg) (x y f : List ℝ) (hx : numbers dx = some x) (hy : numbers dy = some y)
    (hf : numbers freq = some f) (o : BeamArgs) (_h1 : o.fwhmx ≠ 0) (_h2 : o.fwhmy ≠ 0) (f0 e : ℝ) (h0 : 0 < f0)
    (hp : ∀ c ∈ f, 0 < c) :
    ∃ r, gaussPsfFreq dx dy freq o f0 e = .ok r ∧
      Tabulates r x y f (fun a b c => beam o (o.fwhmx * (f0 / c) ^ e) (o.fwhmy * (f0 / c) ^ e) a b) := by
  refine ⟨_, by unfold gaussPsfFreq; rw [checkThree_numbers _ _ _ _ _ _ hx hy hf], rfl, ?_⟩
  intro i j k a b c g1 g2 g3
  have hc : 0 < c := hp c (List.mem_of_getElem? g3)
  rw [(outer_tabulates x y f _).2 i j k a b c g1 g2 g3, exp_bells, widthAt_eq _ _ _ _ hc h0,
    widthAt_eq _ _ _ _ hc h0]
  rfl

/-- **C104**: at the reference frequency the beam is that of `gauss_psf`. -/
theorem C104_reference (dx dy freq : AxisArg) (x y f : List ℝ) (hx : numbers dx = some x) (hy : numbers dy = some y)
    (hf : numbers freq = some f) (o : BeamArgs) (h1 : o.fwhmx ≠ 0) (h2 : o.fwhmy ≠ 0) (f0 e : ℝ) (h0 : 0 < f0)
    (hp : ∀ c ∈ f, 0 < c) (r r' : Map.Arr ℝ) (hr : gaussPsf dx dy freq o = .ok r)
    (hr' : gaussPsfFreq dx dy freq o f0 e = .ok r') (i j k : ℕ) (hi : i < x.length) (hj : j < y.length)
    (hk : f[k]? = some f0) : r'.get [i, j, k] = r.get [i, j, k] := by
  obtain ⟨s, g1, g2⟩ := C104_beam dx dy freq x y f hx hy hf o h1 h2
  obtain ⟨s', g1', g2'⟩ := C104_scaling dx dy freq x y f hx hy hf o h1 h2 f0 e h0 hp
  rw [g1] at hr
  rw [g1'] at hr'
  simp only [Except.ok.injEq] at hr hr'
  subst hr hr'
  rw [g2.2 i j k _ _ _ (List.getElem?_eq_getElem hi) (List.getElem?_eq_getElem hj) hk,
    g2'.2 i j k _ _ _ (List.getElem?_eq_getElem hi) (List.getElem?_eq_getElem hj) hk]
  simp only [div_self h0.ne', Real.one_rpow, mul_one]

/-- **C104**: with `freq_exp=1` the width is inversely proportional to the frequency, as for a typical beam. -/
theorem C104_typical_partial (dx dy freq : AxisArg) (x y f : List ℝ) (hx : numbers dx = some x)
    (hy : numbers dy = some y) (hf : numbers freq = some f) (o : BeamArgs) (h1 : o.fwhmx ≠ 0) (h2 : o.fwhmy ≠ 0)
    (f0 : ℝ) (h0 : 0 < f0) (hp : ∀ c ∈ f, 0 < c) :
    ∃ r, gaussPsfFreq dx dy freq o f0 1 = .ok r ∧
      Tabulates r x y f (fun a b c => beam o (o.fwhmx * f0 / c) (o.fwhmy * f0 / c) a b) := by
  obtain ⟨r, g1, g2⟩ := C104_scaling dx dy freq x y f hx hy hf o h1 h2 f0 1 h0 hp
  refine ⟨r, g1, ?_⟩
  simp only [Real.rpow_one, ← mul_div_assoc] at g2
  exact g2

/-- **C104**: with the default exponent, documented as correct for a typical beam and frequencies, the width is
proportional to the frequency: beside the centre the beam is stronger at each higher frequency. -/
theorem C104_default_grows (dx dy freq : AxisArg) (x y f : List ℝ) (hx : numbers dx = some x)
    (hy : numbers dy = some y) (hf : numbers freq = some f) (o : BeamArgs) (h1 : 0 < o.fwhmx) (h2 : 0 < o.fwhmy)
    (f0 : ℝ) (h0 : 0 < f0) (hp : ∀ c ∈ f, 0 < c) :
    ∃ r, gaussPsfFreq dx dy freq o f0 = .ok r ∧
      Tabulates r x y f (fun a b c => beam o (o.fwhmx * (c / f0)) (o.fwhmy * (c / f0)) a b) ∧
      ∀ (i j k k' : ℕ) (a b c c' : ℝ), x[i]? = some a → y[j]? = some b → f[k]? = some c → f[k']? = some c' → c < c' →
        (a, b) ≠ (o.cx, o.cy) → r.get [i, j, k] < r.get [i, j, k'] := by
  obtain ⟨r, g1, g2⟩ := C104_scaling dx dy freq x y f hx hy hf o h1.ne' h2.ne' f0 (-1) h0 hp
  have g3 : Tabulates r x y f (fun a b c => beam o (o.fwhmx * (c / f0)) (o.fwhmy * (c / f0)) a b) := by
    simp only [Real.rpow_neg_one, inv_div] at g2
    exact g2
  refine ⟨r, g1, g3, ?_⟩
  intro i j k k' a b c c' e1 e2 e3 e4 hc hab
  rw [g3.2 i j k a b c e1 e2 e3, g3.2 i j k' a b c' e1 e2 e4]
  have p := hp c (List.mem_of_getElem? e3)
  have q : c / f0 < c' / f0 := div_lt_div_of_pos_right hc h0
  have p' : 0 < c / f0 := by positivity
  have wx : o.fwhmx * (c / f0) < o.fwhmx * (c' / f0) := mul_lt_mul_of_pos_left q h1
  have wy : o.fwhmy * (c / f0) < o.fwhmy * (c' / f0) := mul_lt_mul_of_pos_left q h2
  have le : ∀ (w w' u : ℝ), 0 < w → w < w' → Map.Spec.bell w u ≤ Map.Spec.bell w' u := by
    intro w w' u h h'
    by_cases hu : u = 0
    · simp [hu, Map.Spec.bell]
    · exact (Map.bell_narrow w w' u h h' hu).le
  by_cases ha : a = o.cx
  · have hb : b - o.cy ≠ 0 := fun h' => hab (by rw [ha, sub_eq_zero.1 h'])
    exact mul_lt_mul' (le _ _ _ (by positivity) wx) (Map.bell_narrow _ _ _ (by positivity) wy hb)
      (Map.bell_pos _ _).le (Map.bell_pos _ _)
  · have ha : a - o.cx ≠ 0 := sub_ne_zero.2 ha
    exact mul_lt_mul (Map.bell_narrow _ _ _ (by positivity) wx ha) (le _ _ _ (by positivity) wy)
      (Map.bell_pos _ _) (Map.bell_pos _ _).le

/-- **C104**: axes that are not a list of numbers are refused by all response functions. -/
theorem C104_refused (a dx dy freq : AxisArg) (ha : numbers a = none) (o : BeamArgs) (f0 e A w : ℝ) :
    gaussPsf a dy freq o = .error .value ∧ gaussPsf dx dy a o = .error .value ∧
    gaussPsfFreq a dy freq o f0 e = .error .value ∧ gaussPsfFreq dx dy a o f0 e = .error .value ∧
    gaussPsf dx a freq o = .error .value ∧ gaussPsfFreq dx a freq o f0 e = .error .value ∧
    gaussResponse a A f0 w = .error .value ∧ boxcarResponse a A f0 w = .error .value := by
  cases a with
  | num x => simp [numbers] at ha
  | arr l => simp [numbers] at ha
  | deep => cases dx <;> cases dy <;>
      simp [gaussPsf, gaussPsfFreq, gaussResponse, boxcarResponse, checkThree, checkShape]
  | bad => cases dx <;> cases dy <;>
      simp [gaussPsf, gaussPsfFreq, gaussResponse, boxcarResponse, checkThree, checkShape]

/-! ## Spectral responses -/

/-- **C104**: `gauss_response` is a Gaussian profile of the given height, centre and width. -/
theorem C104_spectral_gauss (freq : AxisArg) (f : List ℝ) (hf : numbers freq = some f) (A f0 w : ℝ) (_hw : w ≠ 0) :
    gaussResponse freq A f0 w = .ok (f.map (fun c => A * Map.Spec.bell w (c - f0))) := by
  unfold gaussResponse
  rw [checkShape_numbers _ _ hf]
  simp only [Except.ok.injEq, List.map_inj_left]
  intro c _
  have := exp_bells w 1 (c - f0) 0
  rw [show (c - f0) ^ 2 / w ^ 2 + (0 : ℝ) ^ 2 / 1 ^ 2 = (c - f0) ^ 2 / w ^ 2 by simp] at this
  rw [this]
  simp [Map.Spec.bell]

/-- **C104**: `boxcar_response` is the given height at frequencies not more than half the width from the centre, and
zero at the others. -/
theorem C104_boxcar (freq : AxisArg) (f : List ℝ) (hf : numbers freq = some f) (A f0 w : ℝ) :
    ∃ r, boxcarResponse freq A f0 w = .ok r ∧ r.length = f.length ∧
      ∀ (k : ℕ) (c : ℝ), f[k]? = some c → (|c - f0| ≤ w / 2 → r[k]? = some A) ∧ (w / 2 < |c - f0| → r[k]? = some 0) := by
  refine ⟨_, by unfold boxcarResponse; rw [checkShape_numbers _ _ hf], by simp, ?_⟩
  intro k c hk
  rw [List.getElem?_map, hk, Option.map_some]
  refine ⟨fun h => ?_, fun h => ?_⟩
  · rw [abs_le] at h
    rw [if_pos ⟨by linarith, by linarith⟩]
  · rw [if_neg]
    rintro ⟨h1, h2⟩
    exact absurd (abs_le.2 ⟨by linarith, by linarith⟩) (not_le.2 h)

theorem sum_between (n s t : ℕ) (A : ℝ) (hst : s ≤ t) (htn : t ≤ n) (q : ℕ → Prop) [DecidablePred q]
    (hq : ∀ k < n, q k ↔ s ≤ k ∧ k < t) :
    ((List.range n).map (fun k => if q k then A else 0)).sum = ((t - s : ℕ) : ℝ) * A := by
  have h1 : ((List.range n).map (fun k => if q k then A else 0)).sum =
      ∑ k ∈ Finset.range n, if q k then A else 0 := by
    rw [← List.sum_toFinset _ List.nodup_range, List.toFinset_range]
  rw [h1, ← Finset.sum_filter]
  have h2 : (Finset.range n).filter q = Finset.Ico s t := by
    ext k
    simp only [Finset.mem_filter, Finset.mem_range, Finset.mem_Ico]
    constructor
    · rintro ⟨h, h'⟩; exact (hq k h).1 h'
    · intro h; exact ⟨by omega, (hq k (by omega)).2 h⟩
  rw [h2, Finset.sum_const, Nat.card_Ico, nsmul_eq_mul]

/-- **C104**: a box as wide as `m` channels whose ends are not at the centres of channels counts `m` channels: the
total response is height times width. -/
theorem C104_box_width_partial (n m j : ℕ) (a w A f0 : ℝ) (hw : 0 < w) (hj : j + m ≤ n)
    (hlo : a + ((j : ℝ) - 1) * w < f0 - (m * w) / 2) (hhi : f0 - (m * w) / 2 < a + (j : ℝ) * w) :
    ∃ r, boxcarResponse (.arr (channels n a w)) A f0 (m * w) = .ok r ∧ r.sum = m * A ∧ r.sum * w = A * (m * w) := by
  have key : ((channels n a w).map (fun f => if f ≥ f0 - m * w / 2 ∧ f ≤ f0 + m * w / 2 then A else 0)).sum
      = m * A := by
    unfold channels
    rw [List.map_map]
    have := sum_between n j (j + m) A (by omega) hj
      (fun k => a + (k : ℝ) * w ≥ f0 - m * w / 2 ∧ a + (k : ℝ) * w ≤ f0 + m * w / 2) (by
        intro k _
        constructor
        · rintro ⟨h1, h2⟩
          constructor
          · by_contra hc
            have : (k : ℝ) ≤ j - 1 := by
              have : k + 1 ≤ j := by omega
              have : ((k + 1 : ℕ) : ℝ) ≤ j := by exact_mod_cast this
              push_cast at this; linarith
            have := mul_le_mul_of_nonneg_right this hw.le
            linarith
          · by_contra hc
            have : (j : ℝ) + m ≤ k := by exact_mod_cast (by omega : j + m ≤ k)
            have := mul_le_mul_of_nonneg_right this hw.le
            linarith
        · rintro ⟨h1, h2⟩
          have e1 : (j : ℝ) ≤ k := by exact_mod_cast h1
          have e2 : (k : ℝ) ≤ j + m - 1 := by
            have : ((k + 1 : ℕ) : ℝ) ≤ ((j + m : ℕ) : ℝ) := by exact_mod_cast h2
            push_cast at this; linarith
          have e1 := mul_le_mul_of_nonneg_right e1 hw.le
          have e2 := mul_le_mul_of_nonneg_right e2 hw.le
          exact ⟨by linarith, by linarith⟩)
    rw [show j + m - j = m by omega] at this
    exact this
  refine ⟨_, rfl, key, ?_⟩
  simp only [key]
  ring

/-- **C104**: a box as wide as `m` channels whose ends are at the centres of channels counts `m + 1` channels: the
total response is too large by one channel. -/
theorem C104_box_one_more (n m j : ℕ) (a w A : ℝ) (hw : 0 < w) (hj : j + m < n) :
    ∃ r, boxcarResponse (.arr (channels n a w)) A (a + (j : ℝ) * w + m * w / 2) (m * w) = .ok r ∧
      r.sum = (m + 1) * A := by
  obtain ⟨f0, hf0⟩ : ∃ f0, f0 = a + (j : ℝ) * w + m * w / 2 := ⟨_, rfl⟩
  rw [← hf0]
  refine ⟨_, rfl, ?_⟩
  unfold channels
  rw [List.map_map]
  have := sum_between n j (j + m + 1) A (by omega) (by omega)
    (fun k => a + (k : ℝ) * w ≥ f0 - m * w / 2 ∧ a + (k : ℝ) * w ≤ f0 + m * w / 2) (by
      intro k _
      rw [hf0]
      constructor
      · rintro ⟨h1, h2⟩
        have e1 : (j : ℝ) * w ≤ k * w := by linarith
        have e2 : (k : ℝ) * w ≤ (j + m) * w := by linarith
        have e1 := le_of_mul_le_mul_right e1 hw
        have e2 := le_of_mul_le_mul_right e2 hw
        have e1 : j ≤ k := by exact_mod_cast e1
        have e2 : k ≤ j + m := by exact_mod_cast e2
        omega
      · rintro ⟨h1, h2⟩
        have e1 : (j : ℝ) ≤ k := by exact_mod_cast h1
        have e2 : (k : ℝ) ≤ j + m := by exact_mod_cast (by omega : k ≤ j + m)
        have e1 := mul_le_mul_of_nonneg_right e1 hw.le
        have e2 := mul_le_mul_of_nonneg_right e2 hw.le
        exact ⟨by linarith, by linarith⟩)
  rw [show j + m + 1 - j = m + 1 by omega] at this
  push_cast at this
  exact this

/-- **C104**: two boxes that touch both count a channel at the frequency between them. -/
theorem C104_touching_boxes (freq : AxisArg) (f : List ℝ) (hf : numbers freq = some f) (A B c u v : ℝ) (hu : 0 ≤ u)
    (hv : 0 ≤ v) (k : ℕ) (hk : f[k]? = some c) :
    ∃ r s, boxcarResponse freq A (c - u / 2) u = .ok r ∧ boxcarResponse freq B (c + v / 2) v = .ok s ∧
      r[k]? = some A ∧ s[k]? = some B := by
  obtain ⟨r, h1, -, h2⟩ := C104_boxcar freq f hf A (c - u / 2) u
  obtain ⟨s, g1, -, g2⟩ := C104_boxcar freq f hf B (c + v / 2) v
  refine ⟨r, s, h1, g1, (h2 k c hk).1 ?_, (g2 k c hk).1 ?_⟩
  · rw [sub_sub_cancel, abs_of_nonneg (by linarith)]
  · rw [sub_add_cancel_left, abs_neg, abs_of_nonneg (by linarith)]

/-! ## Noise -/

section
variable {G : Type} (next : G → ℝ × G)

theorem draws_length : ∀ (n : ℕ) (g : G), (draws next n g).1.length = n
  | 0, g => rfl
  | n + 1, g => by simp [draws, draws_length n]

theorem draws_add : ∀ (m n : ℕ) (g : G),
    (draws next (m + n) g).1 = (draws next m g).1 ++ (draws next n (draws next m g).2).1 ∧
    (draws next (m + n) g).2 = (draws next n (draws next m g).2).2
  | 0, n, g => by simp [draws]
  | m + 1, n, g => by
    rw [show m + 1 + n = (m + n) + 1 by omega]
    simp only [draws]
    obtain ⟨h1, h2⟩ := draws_add m n (next g).2
    exact ⟨by rw [h1]; simp, h2⟩

/-- **C104**: the noise is one value for each sample, the bias plus `rms/sqrt(dt)` times a standard normal number of
the generator.  These numbers, and the state of the generator afterwards, do not depend on the parameters. -/
theorem C104_noise (n : ℕ) (g : G) :
    ∃ (zs : List ℝ) (g' : G), zs.length = n ∧ ∀ dt rms bias : ℝ, 0 < dt → 0 ≤ rms →
      whiteNoise next n dt rms bias g = (.ok (zs.map (fun z => some (bias + rms / Real.sqrt dt * z))), g') := by
  refine ⟨(draws next n g).1, (draws next n g).2, draws_length next n g, ?_⟩
  intro dt rms bias hdt hr
  unfold whiteNoise
  rw [if_neg (by rintro ⟨_, h⟩; linarith), if_pos hdt]

/-- **C104**: samples `c` times as long have noise smaller by `sqrt(c)`: with the same generator the differences from
the bias. -/
theorem C104_noise_time (n : ℕ) (g : G) (dt c rms bias : ℝ) (hdt : 0 < dt) (hc : 0 < c) (hr : 0 ≤ rms) :
    ∃ vs ws : List ℝ, (whiteNoise next n dt rms bias g).1 = .ok (vs.map some) ∧
      (whiteNoise next n (c * dt) rms bias g).1 = .ok (ws.map some) ∧
      ∀ (k : ℕ) (v w : ℝ), vs[k]? = some v → ws[k]? = some w → w - bias = (v - bias) / Real.sqrt c := by
  obtain ⟨zs, g', hl, h⟩ := C104_noise next n g
  refine ⟨zs.map (fun z => bias + rms / Real.sqrt dt * z), zs.map (fun z => bias + rms / Real.sqrt (c * dt) * z),
    by rw [h dt rms bias hdt hr, List.map_map]; rfl,
    by rw [h (c * dt) rms bias (by positivity) hr, List.map_map]; rfl, ?_⟩
  intro k v w hv hw
  rw [List.getElem?_map, Option.map_eq_some_iff] at hv hw
  obtain ⟨z, hz, rfl⟩ := hv
  obtain ⟨z', hz', rfl⟩ := hw
  rw [hz, Option.some.injEq] at hz'
  subst hz'
  have h1 : Real.sqrt c ≠ 0 := (Real.sqrt_pos.2 hc).ne'
  have h2 : Real.sqrt dt ≠ 0 := (Real.sqrt_pos.2 hdt).ne'
  rw [Real.sqrt_mul hc.le]
  field_simp
  ring

/-- **C104**: noise drawn in two blocks with one generator is the noise drawn at once: each sample gets its own random
number. -/
theorem C104_noise_blocks (m n : ℕ) (dt rms bias : ℝ) (g : G) (hdt : 0 < dt) (hr : 0 ≤ rms) :
    ∃ (a b : List (Option ℝ)) (g1 g2 : G), whiteNoise next m dt rms bias g = (.ok a, g1) ∧
      whiteNoise next n dt rms bias g1 = (.ok b, g2) ∧ whiteNoise next (m + n) dt rms bias g = (.ok (a ++ b), g2) ∧
      a.length = m ∧ b.length = n := by
  have hn : ¬ (0 ≤ dt ∧ rms < 0) := by rintro ⟨_, h⟩; linarith
  obtain ⟨h1, h2⟩ := draws_add next m n g
  refine ⟨_, _, _, _, by unfold whiteNoise; rw [if_neg hn, if_pos hdt],
    by unfold whiteNoise; rw [if_neg hn, if_pos hdt], ?_, by simp [draws_length], by simp [draws_length]⟩
  unfold whiteNoise
  rw [if_neg hn, if_pos hdt, h1, h2, List.map_append]

/-- **C104**: a negative noise level raises before the generator is used. -/
theorem C104_noise_refused (n : ℕ) (dt rms bias : ℝ) (g : G) (hdt : 0 ≤ dt) (hr : rms < 0) :
    whiteNoise next n dt rms bias g = (.error .value, g) := by
  unfold whiteNoise
  rw [if_pos ⟨hdt, hr⟩]

/-- **C104**: with a generator the noise depends on its state only; without one, calls with the same arguments give
different noise. -/
theorem C104_noise_unseeded (n : ℕ) (dt rms bias : ℝ) (s1 s2 : G) (hdt : 0 < dt) (hr : 0 < rms) (hn : 1 ≤ n)
    (hs : (next s1).1 ≠ (next s2).1) :
    (∀ g, whiteNoiseArg next s1 (some g) n dt rms bias = whiteNoiseArg next s2 (some g) n dt rms bias) ∧
    (whiteNoiseArg next s1 none n dt rms bias).1 ≠ (whiteNoiseArg next s2 none n dt rms bias).1 := by
  refine ⟨fun g => rfl, ?_⟩
  intro h
  obtain ⟨k, rfl⟩ : ∃ k, n = k + 1 := ⟨n - 1, by omega⟩
  have hx : ¬ (0 ≤ dt ∧ rms < 0) := by rintro ⟨_, h⟩; linarith
  simp only [whiteNoiseArg, whiteNoise, if_neg hx, if_pos hdt, draws, List.map_cons, Except.ok.injEq,
    List.cons.injEq, Option.some.injEq, add_right_inj] at h
  have hq : rms / Real.sqrt dt ≠ 0 := div_ne_zero hr.ne' (Real.sqrt_pos.2 hdt).ne'
  exact hs (mul_left_cancel₀ hq h.1)

/-- **C104**: with a time step that is not positive, a request that does not raise gives no finite value. -/
theorem C104_noise_no_time (n : ℕ) (dt rms bias : ℝ) (g : G) (hdt : dt ≤ 0) (l : List (Option ℝ))
    (h : (whiteNoise next n dt rms bias g).1 = .ok l) : l = List.replicate n none := by
  unfold whiteNoise at h
  split at h
  · cases h
  · rw [if_neg (not_lt.2 hdt)] at h
    simp only [Except.ok.injEq] at h
    rw [← h, List.map_const', draws_length]

/-- **C104**: without noise every sample gets zero, whatever the time step. -/
theorem C104_no_noise (n : ℕ) (dt : ℝ) (g : G) :
    (zeroNoise n dt g).1.length = n ∧ (∀ v ∈ (zeroNoise n dt g).1, v = some 0) ∧ (zeroNoise n dt g).2 = g :=
  ⟨by simp [zeroNoise], by simp [zeroNoise], rfl⟩

end

/-! ## The full property -/

/-- The full property: with the default exponent the width of a beam is inversely proportional to the frequency, and
the total response of a box as wide as `m` channels inside the band is its height times its width. -/
def C104_full : Prop :=
  (∀ (x y f : List ℝ) (o : BeamArgs) (f0 : ℝ), 0 < o.fwhmx → 0 < o.fwhmy → 0 < f0 → (∀ c ∈ f, 0 < c) →
    ∃ r, gaussPsfFreq (.arr x) (.arr y) (.arr f) o f0 = .ok r ∧
      Tabulates r x y f (fun a b c => beam o (o.fwhmx * f0 / c) (o.fwhmy * f0 / c) a b)) ∧
  ∀ (n m : ℕ) (a w A f0 : ℝ), 0 < w → a ≤ f0 - m * w / 2 → f0 + m * w / 2 ≤ a + ((n : ℝ) - 1) * w →
    ∃ r, boxcarResponse (.arr (channels n a w)) A f0 (m * w) = .ok r ∧ r.sum * w = A * (m * w)

/-- **C104** is false as stated for the beam: between half and twice the reference frequency. -/
theorem C104_full_false : ¬ C104_full := by
  rintro ⟨h, -⟩
  obtain ⟨r, h1, h2⟩ := h [1] [0] [1, 2] {} 1 (by norm_num) (by norm_num) (by norm_num) (by
    intro c hc; simp at hc; rcases hc with rfl | rfl <;> norm_num)
  obtain ⟨r', g1, -, g3⟩ := C104_default_grows (.arr [1]) (.arr [0]) (.arr [1, 2]) _ _ _ rfl rfl rfl {} (by norm_num)
    (by norm_num) 1 (by norm_num) (by intro c hc; simp at hc; rcases hc with rfl | rfl <;> norm_num)
  rw [h1] at g1
  simp only [Except.ok.injEq] at g1
  subst g1
  have := g3 0 0 0 1 1 0 1 2 rfl rfl rfl rfl (by norm_num) (by simp)
  rw [h2.2 0 0 0 1 0 1 rfl rfl rfl, h2.2 0 0 1 1 0 2 rfl rfl rfl] at this
  have e := Map.bell_narrow (1 / 2) 1 1 (by norm_num) (by norm_num) (by norm_num)
  simp only [beam, sub_zero, one_mul, div_one] at this
  rw [show Map.Spec.bell 1 0 = 1 by simp [Map.Spec.bell], show Map.Spec.bell (1 / 2) 0 = 1 by simp [Map.Spec.bell],
    mul_one, mul_one] at this
  linarith

/-- The second half of `C104_full` is false for each height and number of channels as well. -/
theorem C104_box_false (m : ℕ) (A : ℝ) (hA : A ≠ 0) :
    ¬ ∀ (n : ℕ) (a w f0 : ℝ), 0 < w → a ≤ f0 - m * w / 2 → f0 + m * w / 2 ≤ a + ((n : ℝ) - 1) * w →
      ∃ r, boxcarResponse (.arr (channels n a w)) A f0 (m * w) = .ok r ∧ r.sum * w = A * (m * w) := by
  intro h
  obtain ⟨r, h1, h2⟩ := h (m + 1) 0 1 (m / 2) (by norm_num) (by simp) (by push_cast; linarith)
  obtain ⟨r', g1, g2⟩ := C104_box_one_more (m + 1) m 0 0 1 A (by norm_num) (by omega)
  rw [show (0 : ℝ) + ((0 : ℕ) : ℝ) * 1 + m * 1 / 2 = m / 2 by simp] at g1
  rw [h1] at g1
  simp only [Except.ok.injEq] at g1
  subst g1
  rw [g2] at h2
  have : A = 0 := by linarith
  exact hA this

/-! ## The hypotheses can be met -/

/-- A beam on two by one positions at two frequencies. -/
example : ∃ r, gaussPsf (.arr [0, 1]) (.num 0) (.arr [90, 100]) { fwhmx := 2 } = .ok r ∧
    r.shape = [2, 1, 2] ∧ r.get [0, 0, 1] = 1 ∧ r.get [1, 0, 1] = 1 / 2 := by
  obtain ⟨r, h1, h2⟩ := C104_beam (.arr [0, 1]) (.num 0) (.arr [90, 100]) _ _ _ rfl rfl rfl { fwhmx := 2 }
    (by norm_num) (by norm_num)
  refine ⟨r, h1, h2.1, ?_, ?_⟩
  · rw [h2.2 0 0 1 0 0 100 rfl rfl rfl]
    simp [beam, Map.Spec.bell]
  · rw [h2.2 1 0 1 1 0 100 rfl rfl rfl]
    simp [beam, Map.Spec.bell]

/-- A box of two channels with ends between channels, and at channels. -/
example : (∃ r, boxcarResponse (.arr (channels 5 0 1)) 3 (3 / 2) ((2 : ℕ) * 1) = .ok r ∧ r.sum = (2 : ℕ) * 3) ∧
    ∃ r, boxcarResponse (.arr (channels 5 0 1)) 3 (0 + ((1 : ℕ) : ℝ) * 1 + (2 : ℕ) * 1 / 2) ((2 : ℕ) * 1) = .ok r ∧
      r.sum = ((2 : ℕ) + 1) * 3 := by
  constructor
  · obtain ⟨r, h1, h2, -⟩ := C104_box_width_partial 5 2 1 0 1 3 (3 / 2) (by norm_num) (by omega) (by norm_num)
      (by norm_num)
    exact ⟨r, h1, h2⟩
  · exact C104_box_one_more 5 2 1 0 1 3 (by norm_num) (by omega)

/-- A generator that counts. -/
example : whiteNoise (fun g : ℕ => ((g : ℝ), g + 1)) 2 4 6 1 5 = (.ok [some 16, some 19], 7) := by
  have h : Real.sqrt 4 = 2 := by rw [show (4 : ℝ) = 2 ^ 2 by norm_num, Real.sqrt_sq (by norm_num)]
  simp [whiteNoise, draws, h]
  norm_num

end Verif.Inst
