import Mathlib.Probability.ProductMeasure
import Verif.Spec.GalAverage
import Verif.Props.Galprops

set_option linter.unusedSectionVars false

/-!
# C139: averages and distributions of random galaxy properties
-/

namespace Verif.Gal

open MeasureTheory ProbabilityTheory
open Spec

/-! ## One value -/

section One

variable {Ω : Type} [MeasurableSpace Ω] {P : Measure Ω}

theorem log_ten : 0 < Real.log 10 := Real.log_pos (by norm_num)

theorem pow_ten (y : ℝ) : (10 : ℝ) ^ y = Real.exp (Real.log 10 * y) :=
  Real.rpow_def_of_pos (by norm_num) y

/-- The logarithm of a scattered value. -/
theorem scatter_law (N : Ω → ℝ) (hN : HasLaw N (gaussianReal 0 1) P) (x s t : ℝ) (hx : 0 < x) :
    HasLaw (fun ω => Real.log (x / 10 ^ t * 10 ^ (s * N ω)) / Real.log 10)
      (gaussianReal (Real.log x / Real.log 10 - t) (Real.toNNReal (s ^ 2))) P := by
  have h := gaussianReal_const_add (gaussianReal_const_mul hN s) (Real.log x / Real.log 10 - t)
  have e : (fun ω => Real.log (x / 10 ^ t * 10 ^ (s * N ω)) / Real.log 10) =
      fun ω => (Real.log x / Real.log 10 - t) + s * N ω := by
    funext ω
    have h1 : (0 : ℝ) < 10 ^ t := Real.rpow_pos_of_pos (by norm_num) _
    have h2 : (0 : ℝ) < 10 ^ (s * N ω) := Real.rpow_pos_of_pos (by norm_num) _
    rw [Real.log_mul (by positivity) h2.ne', Real.log_div hx.ne' h1.ne', Real.log_rpow (by norm_num),
      Real.log_rpow (by norm_num)]
    have := log_ten.ne'
    field_simp
  rw [e]
  convert h using 2
  · simp
  · ext
    simp [Real.coe_toNNReal _ (sq_nonneg s)]

/-- The mean of a scattered value. -/
theorem scatter_mean (N : Ω → ℝ) (hN : HasLaw N (gaussianReal 0 1) P) (x s : ℝ) :
    Integrable (fun ω => x * 10 ^ (s * N ω)) P ∧
      ∫ ω, x * 10 ^ (s * N ω) ∂P = x * 10 ^ (s ^ 2 * Real.log 10 / 2) := by
  have e : (fun ω => x * (10 : ℝ) ^ (s * N ω)) = fun ω => x * Real.exp (Real.log 10 * s * N ω) := by
    funext ω
    rw [pow_ten]
    ring_nf
  have hm := mgf_gaussianReal hN.map_eq (Real.log 10 * s)
  have hi : Integrable (fun ω => Real.exp (Real.log 10 * s * N ω)) P := by
    by_contra hc
    have : mgf N P (Real.log 10 * s) = 0 := integral_undef hc
    rw [hm] at this
    exact absurd this (Real.exp_pos _).ne'
  rw [e]
  refine ⟨hi.const_mul x, ?_⟩
  rw [integral_const_mul]
  have : ∫ ω, Real.exp (Real.log 10 * s * N ω) ∂P = mgf N P (Real.log 10 * s) := rfl
  rw [this, hm, pow_ten]
  congr 2
  simp
  ring

theorem scatter_mean_kept (N : Ω → ℝ) (hN : HasLaw N (gaussianReal 0 1) P) (x s : ℝ) :
    Integrable (fun ω => x / 10 ^ (s ^ 2 * Real.log 10 / 2) * 10 ^ (s * N ω)) P ∧
      ∫ ω, x / 10 ^ (s ^ 2 * Real.log 10 / 2) * 10 ^ (s * N ω) ∂P = x := by
  obtain ⟨h1, h2⟩ := scatter_mean N hN (x / 10 ^ (s ^ 2 * Real.log 10 / 2)) s
  refine ⟨h1, h2.trans ?_⟩
  have : (0 : ℝ) < 10 ^ (s ^ 2 * Real.log 10 / 2) := Real.rpow_pos_of_pos (by norm_num) _
  field_simp

/-- The mean of a value that is switched on by an even number below `q`. -/
theorem duty_mean (U : Ω → ℝ) (hU : HasLaw U (volume.restrict (Set.Icc 0 1)) P) (x q : ℝ)
    (hq : Fraction q) :
    (Integrable (fun ω => if U ω < q then x else 0) P ∧ ∫ ω, (if U ω < q then x else 0) ∂P = x * q) ∧
    (Integrable (fun ω => if q < U ω then 0 else x) P ∧
      ∫ ω, (if q < U ω then 0 else x) ∂P = x * q) := by
  have hP : IsProbabilityMeasure P := by
    have : IsProbabilityMeasure (volume.restrict (Set.Icc (0 : ℝ) 1)) :=
      ⟨by simp [Measure.restrict_apply]⟩
    exact hU.isProbabilityMeasure
  have key : ∀ (S : Set ℝ) (_ : MeasurableSet S), (volume.restrict (Set.Icc (0 : ℝ) 1)) S =
      ENNReal.ofReal q → Integrable (fun ω => S.indicator (fun _ => x) (U ω)) P ∧
        ∫ ω, S.indicator (fun _ => x) (U ω) ∂P = x * q := by
    intro S hS hv
    have hm : AEStronglyMeasurable (S.indicator (fun _ => x)) (volume.restrict (Set.Icc (0 : ℝ) 1)) :=
      (measurable_const.indicator hS).aestronglyMeasurable
    have hfin : IsFiniteMeasure (volume.restrict (Set.Icc (0 : ℝ) 1)) := ⟨by simp⟩
    have hi : Integrable (S.indicator (fun _ => x)) (volume.restrict (Set.Icc (0 : ℝ) 1)) :=
      (integrable_const x).indicator hS
    constructor
    · rw [← hU.map_eq] at hi hm
      exact (integrable_map_measure hm hU.aemeasurable).1 hi
    · have := hU.integral_comp hm
      rw [show (∫ ω, S.indicator (fun _ => x) (U ω) ∂P) = ∫ ω, (S.indicator (fun _ => x) ∘ U) ω ∂P from rfl]
      rw [this, integral_indicator_const x hS, Measure.real, hv, ENNReal.toReal_ofReal hq.1, smul_eq_mul,
        mul_comm]
  constructor
  · have h := key (Set.Iio q) measurableSet_Iio (by
      rw [Measure.restrict_apply measurableSet_Iio]
      have : Set.Iio q ∩ Set.Icc 0 1 = Set.Ico 0 q := by
        ext u
        simp only [Set.mem_inter_iff, Set.mem_Iio, Set.mem_Icc, Set.mem_Ico]
        constructor
        · rintro ⟨a, b, -⟩; exact ⟨b, a⟩
        · rintro ⟨a, b⟩; exact ⟨b, a, b.le.trans hq.2⟩
      rw [this, Real.volume_Ico, sub_zero])
    simpa only [Set.indicator, Set.mem_Iio] using h
  · have h := key (Set.Iic q) measurableSet_Iic (by
      rw [Measure.restrict_apply measurableSet_Iic]
      have : Set.Iic q ∩ Set.Icc 0 1 = Set.Icc 0 q := by
        ext u
        simp only [Set.mem_inter_iff, Set.mem_Iic, Set.mem_Icc]
        constructor
        · rintro ⟨a, b, -⟩; exact ⟨b, a⟩
        · rintro ⟨a, b⟩; exact ⟨b, a, b.trans hq.2⟩
      rw [this, Real.volume_Icc, sub_zero])
    have e : ∀ ω, (if q < U ω then (0 : ℝ) else x) = (Set.Iic q).indicator (fun _ => x) (U ω) := by
      intro ω
      by_cases hc : q < U ω
      · rw [if_pos hc, Set.indicator_of_notMem (by simpa using hc)]
      · rw [if_neg hc, Set.indicator_of_mem (by simpa using not_lt.1 hc)]
    simp only [e]
    exact h

/-- A value scattered around `x` is as often below `x` as above. -/
theorem half_below (N : Ω → ℝ) (m : ℝ) (v : NNReal) (hv : v ≠ 0) (hN : HasLaw N (gaussianReal m v) P) :
    P {ω | N ω ≤ m} = 1 / 2 ∧ P {ω | m ≤ N ω} = 1 / 2 := by
  have hna := noAtoms_gaussianReal (μ := m) hv
  have h1 : P {ω | N ω ≤ m} = gaussianReal m v (Set.Iic m) := hN.measure_eq measurableSet_Iic
  have h2 : P {ω | m ≤ N ω} = gaussianReal m v (Set.Ici m) := hN.measure_eq measurableSet_Ici
  have hsym : gaussianReal m v (Set.Iic m) = gaussianReal m v (Set.Ici m) := by
    have hmap := gaussianReal_map_const_sub (μ := m) (v := v) (2 * m)
    have e : 2 * m - m = m := by ring
    rw [e] at hmap
    conv_lhs => rw [← hmap]
    rw [Measure.map_apply (by fun_prop) measurableSet_Iic]
    congr 1
    ext u
    simp only [Set.mem_preimage, Set.mem_Iic, Set.mem_Ici]
    constructor <;> intro h <;> linarith
  have htot : gaussianReal m v (Set.Iic m) + gaussianReal m v (Set.Ici m) = 1 := by
    rw [← measure_congr (Ioi_ae_eq_Ici (a := m)), ← measure_union (by
      rw [Set.disjoint_left]
      intro u h1 h2
      exact absurd (Set.mem_Iic.1 h1) (not_le.2 (Set.mem_Ioi.1 h2))) measurableSet_Ioi, Set.Iic_union_Ioi]
    exact measure_univ
  rw [h1, h2, ← hsym]
  rw [← hsym, ← two_mul] at htot
  have : gaussianReal m v (Set.Iic m) = 1 / 2 := by
    rw [ENNReal.eq_div_iff (by norm_num) (by norm_num)]
    exact htot
  exact ⟨this, this⟩

end One

/-! ## The calls -/

section Calls

variable {Ω G : Type} [MeasurableSpace Ω] {P : Measure Ω} {R : Ω → Rng ℝ G}

theorem Spec.Random.lawful (h : Random P R) (ω : Ω) : Lawful (R ω) where
  normal := by
    intro n g
    obtain ⟨N, hN, -⟩ := h.normal n g
    rw [hN]; simp
  uniform := by
    intro n g
    obtain ⟨U, hU, -⟩ := h.uniform n g
    rw [hU]; simp

/-- A value with scatter. -/
noncomputable def scattered (keep : Bool) (s v n : ℝ) : ℝ :=
  v / 10 ^ (if keep then s ^ 2 * Real.log 10 / 2 else 0) * 10 ^ (s * n)

theorem log10normal_list (erf : ℝ → ℝ) {Q : Rng ℝ G} (hQ : Lawful Q) (x : Arg ℝ) (s : ℝ) (keep : Bool)
    (g : G) : ∃ y, (log10normal (realFn erf) Q x (.one s) keep g).1 = .ok y ∧
      y.list = List.zipWith (scattered keep s) x.list (Q.normal x.list.length g).1 := by
  cases x with
  | one v =>
    have hl := hQ.normal 1 g
    match hz : (Q.normal 1 g).1, hl with
    | [z], _ =>
      refine ⟨.one (scattered keep s v z), ?_, ?_⟩
      · unfold log10normal centre
        cases keep <;>
          simp [zipA, Arg.size, hz, shaped, spread, scattered, realFn]
      · simp [Arg.list, hz]
  | many xs =>
    have hl := hQ.normal xs.length g
    refine ⟨.many (List.zipWith (scattered keep s) xs (Q.normal xs.length g).1), ?_, rfl⟩
    unfold log10normal centre
    cases keep
    · simp only [Bool.false_eq_true, if_false, Arg.size, spread, shaped, zipA]
      rw [zipL_same _ _ _ (by simp [hl])]
      simp only [Except.map, realFn, List.zipWith_map_right]
      have e : scattered false s = fun a b => a * 10 ^ (s * b) := by
        funext a b; simp [scattered]
      rw [e]
    · simp only [if_true, Arg.size, spread, shaped, zipA, List.length_map]
      rw [zipL_same _ _ _ (by simp [hl])]
      simp only [Except.map, realFn, List.zipWith_map_right, List.zipWith_map_left]
      have e : scattered true s = fun a b => a / 10 ^ (s ^ 2 * Real.log 10 / 2) * 10 ^ (s * b) := by
        funext a b; simp [scattered]
      rw [e]

theorem scatterOwn_list (erf : ℝ → ℝ) {Q : Rng ℝ G} (hQ : Lawful Q) (x : Arg ℝ) (s : ℝ) (keep : Bool)
    (w : World G) : ∃ y, (scatterOwn (realFn erf) Q true x (.one s) keep w).1 = .ok y ∧
      y.list = List.zipWith (scattered keep s) x.list (Q.normal x.list.length w.own).1 :=
  log10normal_list erf hQ x s keep w.own

theorem scattered_cut (keep : Bool) (s mMin : ℝ) (ms vs ns : List ℝ) :
    List.zipWith (fun m l => if m < mMin then 0 else l) ms (List.zipWith (scattered keep s) vs ns) =
      List.zipWith (scattered keep s) (List.zipWith (fun m l => if m < mMin then 0 else l) ms vs) ns := by
  induction ms generalizing vs ns with
  | nil => simp
  | cons m ms ih =>
    match vs, ns with
    | [], _ => simp
    | _ :: _, [] => simp
    | v :: vs, n :: ns =>
      simp only [List.zipWith_cons_cons, ih, List.cons.injEq, and_true]
      split
      · simp [scattered]
      · rfl

/-- What a call with scatter gives. -/
theorem scatter_run (erf : ℝ → ℝ) {Q0 : Rng ℝ G} (w w0 : World G) (call : Call ℝ)
    (keep : Bool) (s : ℝ) (h : Scatter call keep s) (x : Arg ℝ)
    (hx : ((plain call).run (realFn erf) Q0 w0).1 = .ok (.val x)) :
    ∃ g, ∀ Q : Rng ℝ G, Lawful Q → ∃ y, (call.run (realFn erf) Q w).1 = .ok (.val y) ∧
      y.list = List.zipWith (scattered keep s) x.list (Q.normal x.list.length g).1 := by
  cases h with
  | li sfr d a b r s =>
    refine ⟨w.own, fun Q hQ => ?_⟩
    obtain ⟨y, h1, h2⟩ := scatterOwn_list erf hQ (sfr.map (liMean (realFn erf) d a b r)) s true w
    simp only [plain, Call.run, li16, given, ndmin1, scatterOwn_off, Except.map, Except.ok.injEq, Out.val.injEq] at hx
    refine ⟨.many y.list, ?_, ?_⟩
    · simp only [Call.run, li16, given, ndmin1, h1, Except.map]
    · rw [← hx]; exact h2
  | gao sfr d a b r s =>
    refine ⟨w.own, fun Q hQ => ?_⟩
    obtain ⟨y, h1, h2⟩ := scatterOwn_list erf hQ (sfr.map (gaoMean (realFn erf) d a b r)) s true w
    simp only [plain, Call.run, hcnGao, given, ndmin1, scatterOwn_off, Except.map, Except.ok.injEq, Out.val.injEq] at hx
    refine ⟨.many y.list, ?_, ?_⟩
    · simp only [Call.run, hcnGao, given, ndmin1, h1, Except.map]
    · rw [← hx]; exact h2
  | padmanabhan mass z m1 b n1 a s =>
    refine ⟨w.own, fun Q hQ => ?_⟩
    simp only [plain, Call.run, padmanabhan19, given] at hx ⊢
    rcases hz : zipA (padMean (realFn erf) m1 b n1 a) mass z with e | l
    · rw [hz] at hx; simp [Except.map] at hx
    · rw [hz] at hx
      simp only [Bool.false_eq_true, if_false, Except.map, Except.ok.injEq, Out.val.injEq] at hx
      subst hx
      obtain ⟨y, h1, h2⟩ := scatterOwn_list erf hQ l s true w
      refine ⟨y, ?_, h2⟩
      simp only [if_true, h1, Except.map]
  | behroozi ev z mass s =>
    refine ⟨w.deflt, fun Q hQ => ?_⟩
    simp only [plain, Call.run, Gal.behroozi, Bool.not_true, Bool.false_eq_true, if_false] at hx ⊢
    rcases hz : zipA ev z mass with e | l
    · rw [hz] at hx; simp at hx
    · rw [hz] at hx
      simp only [Except.ok.injEq, Out.val.injEq] at hx
      subst hx
      obtain ⟨y, h1, h2⟩ := log10normal_list erf hQ l s true w.deflt
      refine ⟨y, ?_, h2⟩
      simp only [if_true, h1, Except.map]
  | keating mass mMin a s =>
    refine ⟨w.own, fun Q hQ => ?_⟩
    obtain ⟨y, h1, h2⟩ := scatterOwn_list erf hQ (.many (mass.list.map (fun m => a * m))) s false w
    simp only [plain, Call.run, keating16, given, scatterOwn_off, Except.map, Except.ok.injEq, Out.val.injEq] at hx
    subst hx
    refine ⟨.many (cutBelow mMin mass.list y.list), ?_, ?_⟩
    · simp only [Call.run, keating16, given, h1, Except.map]
    · simp only [Arg.list] at h2 ⊢
      rw [h2]
      unfold cutBelow
      rw [scattered_cut]
      congr 2
      simp [Arg.list]
  | delooze sfr line set s =>
    refine ⟨w.own, fun Q hQ => ?_⟩
    simp only [plain, Call.run, delooze14, given] at hx ⊢
    rcases hc : deloozeCheck line set with e | u
    · rw [hc] at hx; simp [Except.map] at hx
    · rw [hc] at hx
      simp only at hx ⊢
      rcases hf : deloozeFit (K := ℝ) line set with - | f
      · rw [hf] at hx; simp [Except.map] at hx
      · rw [hf] at hx
        simp only [scatterOwn_off, Except.map, Except.ok.injEq, Out.val.injEq] at hx
        subst hx
        obtain ⟨y, h1, h2⟩ := scatterOwn_list erf hQ (.many (sfr.list.map (fun s =>
          (realFn erf).pow 10 (((realFn erf).log10 s - f.b) / f.m)))) s false w
        refine ⟨y, ?_, h2⟩
        simp only [Option.getD_some, h1, Except.map]
  | uzgil unit sfr d line s =>
    refine ⟨w.own, fun Q hQ => ?_⟩
    simp only [plain, Call.run, firModel, given] at hx ⊢
    rcases hf : uzgilFit (K := ℝ) line with - | ⟨a, b⟩
    · rw [hf] at hx; simp [Except.map] at hx
    · rw [hf] at hx
      simp only [scatterOwn_off, Except.map, Except.ok.injEq, Out.val.injEq] at hx
      subst hx
      obtain ⟨y, h1, h2⟩ := scatterOwn_list erf hQ (.many (sfr.list.map (firMean (realFn erf) unit d a b))) s
        false w
      exact ⟨y, by simp only [h1, Except.map], h2⟩
  | spinoglio unit sfr d line s =>
    refine ⟨w.own, fun Q hQ => ?_⟩
    simp only [plain, Call.run, firModel, given] at hx ⊢
    rcases hf : spinoglioFit (K := ℝ) line with - | ⟨a, b⟩
    · rw [hf] at hx; simp [Except.map] at hx
    · rw [hf] at hx
      simp only [scatterOwn_off, Except.map, Except.ok.injEq, Out.val.injEq] at hx
      subst hx
      obtain ⟨y, h1, h2⟩ := scatterOwn_list erf hQ (.many (sfr.list.map (firMean (realFn erf) unit d a b))) s
        false w
      exact ⟨y, by simp only [h1, Except.map], h2⟩
  | schaerer sfr set s =>
    refine ⟨w.own, fun Q hQ => ?_⟩
    simp only [plain, Call.run, schaerer20, given] at hx ⊢
    split at hx
    · simp [Except.map] at hx
    · rename_i hs
      rw [if_neg hs]
      rcases hf : schaererFit (K := ℝ) (set.getD "ALPINE-uvirx") with - | ⟨m, b⟩
      · rw [hf] at hx; simp [Except.map] at hx
      · rw [hf] at hx
        simp only [scatterOwn_off, Except.map, Except.ok.injEq, Out.val.injEq] at hx
        subst hx
        obtain ⟨y, h1, h2⟩ := scatterOwn_list erf hQ (sfr.map (fun x =>
          (realFn erf).pow 10 (m * (realFn erf).log10 x + b))) s false w
        exact ⟨y, by simp only [h1, Except.map], h2⟩
  | zhao sfr d s =>
    refine ⟨w.own, fun Q hQ => ?_⟩
    simp only [plain, Call.run, zhao13, given, scatterOwn_off, Except.map, Except.ok.injEq, Out.val.injEq] at hx
    subst hx
    obtain ⟨y, h1, h2⟩ := scatterOwn_list erf hQ (sfr.map (fun x => (realFn erf).pow 10
      (((realFn erf).log10 (x * 10 ^ 10 / d) - 451 / 100) / (95 / 100)))) s false w
    exact ⟨y, by simp only [Call.run, zhao13, given, h1, Except.map], h2⟩
  | yang fit mass z line s =>
    refine ⟨w.own, fun Q hQ => ?_⟩
    simp only [plain, Call.run, yang22, given] at hx ⊢
    rcases hk : yangLine line with e | kind
    · rw [hk] at hx; simp [Except.map] at hx
    rw [hk] at hx
    simp only at hx ⊢
    rcases hf : yangFit fit line kind z with e | ⟨zs, sig⟩
    · rw [hf] at hx; simp [Except.map] at hx
    rw [hf] at hx
    simp only at hx ⊢
    rcases hz : zipA (fun m x => yangMean (realFn erf) (fit line x) m) mass zs with e | l
    · rw [hz] at hx; simp [Except.map] at hx
    rw [hz] at hx
    simp only [scatterOwn_off, Bool.false_eq_true, if_false, Except.map, Except.ok.injEq, Out.val.injEq] at hx ⊢
    subst hx
    obtain ⟨y, h1, h2⟩ := scatterOwn_list erf hQ l s false w
    refine ⟨y, ?_, h2⟩
    rcases hr : scatterOwn (realFn erf) Q true l (.one s) false w with ⟨r, w'⟩
    rw [hr] at h1
    simp only at h1
    subst h1
    simp only [Option.elim_some, hr]

/-- The values of a call with scatter, as functions of chance. -/
theorem scatter_values (hR : Random P R) (erf : ℝ → ℝ) {Q0 : Rng ℝ G} (w w0 : World G) (call : Call ℝ)
    (keep : Bool) (s : ℝ) (h : Scatter call keep s) (x : Arg ℝ)
    (hx : ((plain call).run (realFn erf) Q0 w0).1 = .ok (.val x)) :
    ∃ (N : ℕ → Ω → ℝ) (y : Ω → Arg ℝ), (∀ i, HasLaw (N i) (gaussianReal 0 1) P) ∧
      (∀ ω, (call.run (realFn erf) (R ω) w).1 = .ok (.val (y ω))) ∧
      (∀ ω, (y ω).list.length = x.list.length) ∧
      ∀ (i : ℕ) (v : ℝ), x.list[i]? = some v → ∀ ω, (y ω).list.getD i 0 = scattered keep s v (N i ω) := by
  obtain ⟨g, hg⟩ := scatter_run erf w w0 call keep s h x hx
  obtain ⟨N, hN, hlaw⟩ := hR.normal x.list.length g
  choose y h1 h2 using fun ω => hg (R ω) (hR.lawful ω)
  refine ⟨N, y, hlaw, h1, ?_, ?_⟩
  · intro ω
    rw [h2, hN]
    simp
  · intro i v hv ω
    obtain ⟨hi, -⟩ := List.getElem?_eq_some_iff.1 hv
    rw [h2, hN, List.getD_eq_getElem?_getD, List.getElem?_zipWith, hv]
    simp [hi]

/-- **C139, width.** With scatter of `s` dex, every value that is positive without it becomes positive
values whose logarithms are distributed normally with standard deviation `s`.  If the mean is not
preserved, they are centred on the logarithm of the value without scatter; if it is, they are centred
below by `s ^ 2 * ln 10 / 2`. -/
theorem C139_scatter (hR : Random P R) (erf : ℝ → ℝ) {Q0 : Rng ℝ G} (w w0 : World G) (call : Call ℝ)
    (keep : Bool) (s : ℝ) (h : Scatter call keep s) (x : Arg ℝ)
    (hx : ((plain call).run (realFn erf) Q0 w0).1 = .ok (.val x)) :
    ∃ y : Ω → Arg ℝ, (∀ ω, (call.run (realFn erf) (R ω) w).1 = .ok (.val (y ω))) ∧
      ScatteredAround P (fun ω => (y ω).list) x.list (if keep then s ^ 2 * Real.log 10 / 2 else 0) s := by
  obtain ⟨N, y, h1, h2, h3, h4⟩ := scatter_values hR erf w w0 call keep s h x hx
  refine ⟨y, h2, h3, ?_⟩
  intro i v hv
  have e := h4 i v hv
  simp only [e]
  refine ⟨fun hpos => ⟨fun ω => ?_, scatter_law (N i) (h1 i) v s _ hpos⟩, ?_⟩
  · unfold scattered
    have a : ∀ t : ℝ, (0 : ℝ) < 10 ^ t := fun t => Real.rpow_pos_of_pos (by norm_num) t
    exact mul_pos (div_pos hpos (a _)) (a _)
  · rintro rfl ω
    simp [scattered]

theorem dutyModel_average (hR : Random P R) (mean : ℝ → ℝ) (mass : Arg ℝ) (duty : ℝ) (hd : Fraction duty)
    (w : World G) : ∃ y : Ω → Arg ℝ, (∀ ω, (dutyModel (R ω) mean mass duty true w).1 = .ok (y ω)) ∧
      AverageOf P (fun ω => (y ω).list) (mass.list.map (fun m => mean m * duty)) := by
  obtain ⟨U, hU, hlaw⟩ := hR.uniform mass.list.length w.own
  refine ⟨fun ω => .many (switchOn mean duty ((R ω).uniform mass.list.length w.own).1 mass.list),
    fun ω => rfl, fun ω => ?_, ?_⟩
  · show (switchOn mean duty ((R ω).uniform mass.list.length w.own).1 mass.list).length = _
    simp [switchOn, hU]
  · intro i v hv
    rw [List.getElem?_map, Option.map_eq_some_iff] at hv
    obtain ⟨m, hm, rfl⟩ := hv
    obtain ⟨hi, -⟩ := List.getElem?_eq_some_iff.1 hm
    have e : ∀ ω, (switchOn mean duty ((R ω).uniform mass.list.length w.own).1 mass.list).getD i 0 =
        if U i ω < duty then mean m else 0 := by
      intro ω
      unfold switchOn
      rw [hU, List.getD_eq_getElem?_getD, List.getElem?_zipWith, hm]
      simp [hi]
    show Integrable (fun ω => (switchOn mean duty ((R ω).uniform mass.list.length w.own).1 mass.list).getD i 0) P ∧
      ∫ ω, (switchOn mean duty ((R ω).uniform mass.list.length w.own).1 mass.list).getD i 0 ∂P = _
    simp only [e]
    exact (duty_mean (U i) (hlaw i) (mean m) duty hd).1

theorem pullen_average (hR : Random P R) (ls qs : List ℝ) (hq : ∀ q ∈ qs, Fraction q)
    (hl : qs.length = ls.length ∨ qs.length = 1) (w : World G) :
    ∃ (xs : List ℝ) (ys : Ω → List ℝ), scaleBy ls qs = .ok xs ∧
      (∀ ω, switchOff ls ((R ω).uniform ls.length w.own).1 qs = .ok (ys ω)) ∧ AverageOf P ys xs := by
  obtain ⟨U, hU, hlaw⟩ := hR.uniform ls.length w.own
  by_cases h1 : ls.length = qs.length
  · refine ⟨List.zipWith (fun l q => l * q) ls qs, fun ω => List.zipWith (fun off l => if off then 0 else l)
      (List.zipWith (fun f q => decide (f > q)) ((List.range ls.length).map (fun i => U i ω)) qs) ls, ?_, ?_, ?_, ?_⟩
    · unfold scaleBy; rw [if_pos h1]
    · intro ω
      unfold switchOff
      rw [hU, zipL_same _ _ _ (by simp [h1])]
      simp [h1]
    · intro ω; simp [h1]
    · intro i v hv
      rw [List.getElem?_zipWith] at hv
      rcases hls : ls[i]? with - | l
      · rw [hls] at hv; simp at hv
      rcases hqs : qs[i]? with - | q
      · rw [hls, hqs] at hv; simp at hv
      rw [hls, hqs] at hv
      simp only [Option.some.injEq] at hv
      subst hv
      obtain ⟨hi, -⟩ := List.getElem?_eq_some_iff.1 hls
      have e : ∀ ω, (List.zipWith (fun off l => if off = true then 0 else l)
          (List.zipWith (fun f q => decide (f > q)) ((List.range ls.length).map (fun i => U i ω)) qs) ls).getD i 0 =
          if q < U i ω then 0 else l := by
        intro ω
        rw [List.getD_eq_getElem?_getD, List.getElem?_zipWith, List.getElem?_zipWith, hls, hqs]
        simp [hi]
      simp only [e]
      exact (duty_mean (U i) (hlaw i) l q (hq q (List.mem_of_getElem? hqs))).2
  · have h2 : qs.length = 1 := by omega
    match qs, h2, h1, hq with
    | [q], _, h1, hq =>
      refine ⟨ls.map (fun l => l * q), fun ω => List.zipWith (fun off l => if off then 0 else l)
        (((List.range ls.length).map (fun i => U i ω)).map (fun f => decide (f > q))) ls, ?_, ?_, ?_, ?_⟩
      · unfold scaleBy; rw [if_neg h1]
      · intro ω
        unfold switchOff
        rw [hU, zipL_single]
        simp
      · intro ω; simp
      · intro i v hv
        rw [List.getElem?_map, Option.map_eq_some_iff] at hv
        obtain ⟨l, hls, rfl⟩ := hv
        obtain ⟨hi, -⟩ := List.getElem?_eq_some_iff.1 hls
        have e : ∀ ω, (List.zipWith (fun off l => if off = true then 0 else l)
            (((List.range ls.length).map (fun i => U i ω)).map (fun f => decide (f > q))) ls).getD i 0 =
            if q < U i ω then 0 else l := by
          intro ω
          rw [List.getD_eq_getElem?_getD, List.getElem?_zipWith, hls]
          simp [hi]
        simp only [e]
        exact (duty_mean (U i) (hlaw i) l q (hq q (by simp))).2

/-- **C139, mean.** If the documentation of a model says that scatter preserves the mean, the mean of
every value with scatter is the value without.  For duty cycles, the mean of every value with random
switching is the value without (which is the luminosity times the duty cycle). -/
theorem C139_mean (hR : Random P R) (erf : ℝ → ℝ) {Q0 : Rng ℝ G} (w w0 : World G) (call : Call ℝ)
    (h : (∃ s, Scatter call true s) ∨ DutyCycle call) (x : Arg ℝ)
    (hx : ((plain call).run (realFn erf) Q0 w0).1 = .ok (.val x)) :
    ∃ y : Ω → Arg ℝ, (∀ ω, (call.run (realFn erf) (R ω) w).1 = .ok (.val (y ω))) ∧
      AverageOf P (fun ω => (y ω).list) x.list := by
  rcases h with ⟨s, h⟩ | h
  · obtain ⟨N, y, h1, h2, h3, h4⟩ := scatter_values hR erf w w0 call true s h x hx
    refine ⟨y, h2, h3, ?_⟩
    intro i v hv
    simp only [h4 i v hv]
    exact scatter_mean_kept (N i) (h1 i) v s
  · cases h with
    | lidz mass duty hd =>
      obtain ⟨y, h1, h2⟩ := dutyModel_average hR lidzMean mass duty hd w
      simp only [plain, Call.run, lidz11, dutyModel, given, Bool.false_eq_true, if_false, Except.map, Except.ok.injEq,
        Out.val.injEq] at hx
      subst hx
      exact ⟨y, fun ω => by simp only [Call.run, lidz11, given, h1, Except.map], h2⟩
    | breysse mass duty hd =>
      obtain ⟨y, h1, h2⟩ := dutyModel_average hR (breysseMean (realFn erf)) mass duty hd w
      simp only [plain, Call.run, hcnBreysse, dutyModel, given, Bool.false_eq_true, if_false, Except.map,
        Except.ok.injEq, Out.val.injEq] at hx
      subst hx
      exact ⟨y, fun ω => by simp only [Call.run, hcnBreysse, given, h1, Except.map], h2⟩
    | pullen age mass z sf hsf lo hi hz hage hl =>
      obtain ⟨e1, e2⟩ := C45_duty_fraction age sf z hsf lo hi hz hage
      obtain ⟨xs, ys, a1, a2, a3⟩ := pullen_average hR (mass.list.map pullenMean) (fDuty age sf z) e2
        (by rw [e1, List.length_map]; exact hl) w
      simp only [plain, Call.run, pullen13, given, Bool.false_eq_true, if_false, a1, Except.map, Except.ok.injEq,
        Out.val.injEq] at hx
      subst hx
      refine ⟨fun ω => .many (ys ω), fun ω => ?_, a3⟩
      have := a2 ω
      rw [List.length_map] at this
      simp only [Call.run, pullen13, given, if_true, this, Except.map]

/-- If the documentation does not say that the mean is preserved, it grows by `10 ^ (s ^ 2 * ln 10 / 2)`, and
every value is as often below the value without scatter as above. -/
theorem C139_median (hR : Random P R) (erf : ℝ → ℝ) {Q0 : Rng ℝ G} (w w0 : World G) (call : Call ℝ)
    (s : ℝ) (hs : s ≠ 0) (h : Scatter call false s) (x : Arg ℝ)
    (hx : ((plain call).run (realFn erf) Q0 w0).1 = .ok (.val x)) :
    ∃ y : Ω → Arg ℝ, (∀ ω, (call.run (realFn erf) (R ω) w).1 = .ok (.val (y ω))) ∧
      AverageOf P (fun ω => (y ω).list) (x.list.map (fun v => v * 10 ^ (s ^ 2 * Real.log 10 / 2))) ∧
      ∀ (i : ℕ) (v : ℝ), x.list[i]? = some v → 0 < v →
        P {ω | (y ω).list.getD i 0 ≤ v} = 1 / 2 ∧ P {ω | v ≤ (y ω).list.getD i 0} = 1 / 2 := by
  obtain ⟨N, y, h1, h2, h3, h4⟩ := scatter_values hR erf w w0 call false s h x hx
  have e0 : ∀ v n, scattered false s v n = v * 10 ^ (s * n) := by intro v n; simp [scattered]
  refine ⟨y, h2, ⟨fun ω => by simp [h3], ?_⟩, ?_⟩
  · intro i u hu
    rw [List.getElem?_map, Option.map_eq_some_iff] at hu
    obtain ⟨v, hv, rfl⟩ := hu
    simp only [h4 i v hv, e0]
    exact scatter_mean (N i) (h1 i) v s
  · intro i v hv hpos
    have hlaw := scatter_law (N i) (h1 i) v s 0 hpos
    rw [sub_zero] at hlaw
    obtain ⟨a, b⟩ := half_below _ _ _ (by
      rw [Ne, Real.toNNReal_eq_zero, not_le]
      positivity) hlaw
    have hy : ∀ ω, 0 < v / 10 ^ (0 : ℝ) * (10 : ℝ) ^ (s * N i ω) := fun ω => by
      rw [Real.rpow_zero, div_one]
      exact mul_pos hpos (Real.rpow_pos_of_pos (by norm_num) _)
    simp only [h4 i v hv]
    constructor
    · rw [← a]
      congr 1
      ext ω
      simp only [Set.mem_setOf_eq, div_le_div_iff_of_pos_right log_ten]
      rw [Real.log_le_log_iff (hy ω) hpos]
      simp [scattered]
    · rw [← b]
      congr 1
      ext ω
      simp only [Set.mem_setOf_eq, div_le_div_iff_of_pos_right log_ten]
      rw [Real.log_le_log_iff hpos (hy ω)]
      simp [scattered]

/-- **C139, totals.** So the mean of the total of any set of the galaxies is the total without random
numbers. -/
theorem C139_total {ys : Ω → List ℝ} {xs : List ℝ} (h : AverageOf P ys xs) (S : Finset ℕ) :
    ∫ ω, ∑ i ∈ S, (ys ω).getD i 0 ∂P = ∑ i ∈ S, xs.getD i 0 := by
  have key : ∀ i, Integrable (fun ω => (ys ω).getD i 0) P ∧ ∫ ω, (ys ω).getD i 0 ∂P = xs.getD i 0 := by
    intro i
    by_cases hi : i < xs.length
    · obtain ⟨a, b⟩ := h.2 i _ (List.getElem?_eq_getElem hi)
      refine ⟨a, b.trans ?_⟩
      simp [List.getD_eq_getElem?_getD, hi]
    · have e : ∀ ω, (ys ω).getD i 0 = 0 := by
        intro ω
        rw [List.getD_eq_getElem?_getD, List.getElem?_eq_none (by rw [h.1]; omega)]
        rfl
      simp only [e]
      rw [List.getD_eq_getElem?_getD, List.getElem?_eq_none (by omega)]
      simp
  rw [integral_finsetSum _ (fun i _ => (key i).1)]
  exact Finset.sum_congr rfl (fun i _ => (key i).2)

end Calls

/-! ## Examples -/

/-- Independent normal and even numbers: one stream of each for every state. -/
noncomputable def chance : Measure ((ℕ → ℝ) × (ℕ → ℝ)) :=
  (Measure.infinitePi (fun _ => gaussianReal 0 1)).prod
    (Measure.infinitePi (fun _ => volume.restrict (Set.Icc (0 : ℝ) 1)))

/-- The generators that give these numbers, beginning with the one given by the state. -/
def streams (ω : (ℕ → ℝ) × (ℕ → ℝ)) : Rng ℝ ℕ where
  normal := fun n g => ((List.range n).map (fun i => ω.1 (g + i)), g + n)
  uniform := fun n g => ((List.range n).map (fun i => ω.2 (g + i)), g + n)

instance even_probability : IsProbabilityMeasure (volume.restrict (Set.Icc (0 : ℝ) 1)) :=
  ⟨by simp [Measure.restrict_apply]⟩

/-- The hypotheses of C139 are met. -/
theorem streams_random : Random chance streams where
  normal := fun n g => ⟨fun i ω => ω.1 (g + i), fun ω => rfl, fun i => by
    have h : MeasurePreserving (fun ω : (ℕ → ℝ) × (ℕ → ℝ) => ω.1 (g + i)) chance (gaussianReal 0 1) :=
      (measurePreserving_eval_infinitePi (fun _ => gaussianReal 0 1) (g + i)).comp measurePreserving_fst
    exact h.hasLaw⟩
  uniform := fun n g => ⟨fun i ω => ω.2 (g + i), fun ω => rfl, fun i => by
    have h : MeasurePreserving (fun ω : (ℕ → ℝ) × (ℕ → ℝ) => ω.2 (g + i)) chance
        (volume.restrict (Set.Icc (0 : ℝ) 1)) :=
      (measurePreserving_eval_infinitePi (fun _ => volume.restrict (Set.Icc (0 : ℝ) 1)) (g + i)).comp
        measurePreserving_snd
    exact h.hasLaw⟩

/-- The documented models: the total of `li16` for three galaxies is, on average, that without scatter;
half of the galaxies of `schaerer20` are below the relation. -/
example (erf : ℝ → ℝ) (w : World ℕ) :
    (∃ y : (ℕ → ℝ) × (ℕ → ℝ) → Arg ℝ,
      (∀ ω, ((Call.li16 (.many [1, 2, 30]) 1 (137 / 100) (-174 / 100) 1 true (3 / 10)).run (realFn erf)
        (streams ω) w).1 = .ok (.val (y ω))) ∧
      ∫ ω, ∑ i ∈ Finset.range 3, (y ω).list.getD i 0 ∂chance =
        ∑ i ∈ Finset.range 3, (([1, 2, 30] : List ℝ).map
          (liMean (realFn erf) 1 (137 / 100) (-174 / 100) 1)).getD i 0) ∧
    ∃ y : (ℕ → ℝ) × (ℕ → ℝ) → Arg ℝ,
      (∀ ω, ((Call.schaerer20 (.many [1, 2]) none true (4 / 10)).run (realFn erf) (streams ω) w).1 =
        .ok (.val (y ω))) ∧
      chance {ω | (y ω).list.getD 0 0 ≤ 10 ^ ((117 : ℝ) / 100 * (Real.log 1 / Real.log 10) + 661 / 100)} = 1 / 2 := by
  constructor
  · obtain ⟨y, h1, h2⟩ := C139_mean (Q0 := streams ⟨fun _ => 0, fun _ => 0⟩) streams_random erf w w
      (.li16 (.many [1, 2, 30]) 1 (137 / 100) (-174 / 100) 1 true (3 / 10)) (.inl ⟨_, .li ..⟩)
      (.many (([1, 2, 30] : List ℝ).map (liMean (realFn erf) 1 (137 / 100) (-174 / 100) 1))) rfl
    exact ⟨y, h1, C139_total h2 _⟩
  · obtain ⟨y, h1, -, h2⟩ := C139_median (Q0 := streams ⟨fun _ => 0, fun _ => 0⟩) streams_random erf w w
      (.schaerer20 (.many [1, 2]) none true (4 / 10)) (4 / 10) (by norm_num) (.schaerer ..)
      (.many (([1, 2] : List ℝ).map (fun x => (realFn erf).pow 10 (117 / 100 * (realFn erf).log10 x + 661 / 100))))
      (by
        simp only [plain, Call.run, schaerer20, given]
        rw [if_neg (by decide)]
        rfl)
    exact ⟨y, h1, (h2 0 _ rfl (Real.rpow_pos_of_pos (by norm_num) _)).1⟩

end Verif.Gal
