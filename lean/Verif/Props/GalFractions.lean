import Verif.Spec.GalFractions
import Verif.Props.GalRelations
import Verif.Props.GalpropsExact
import Mathlib.Probability.Independence.InfinitePi

set_option linter.unusedSectionVars false

/-!
# The fractions of quenched galaxies and starbursts
-/

namespace Verif.Gal

open MeasureTheory ProbabilityTheory Spec

variable {Ω G : Type} [MeasurableSpace Ω] {P : Measure Ω} {R : Ω → Rng ℝ G}

theorem starForming_eq (erf : ℝ → ℝ) (p : B17 ℝ) (m z : ℝ) : sffrac (realFn erf) p m z = starForming erf p m z := by
  unfold sffrac starForming realFn lg
  ring

theorem bursting_eq (z : ℝ) : sbfrac z = bursting z := by
  unfold sbfrac bursting
  split
  · rename_i h
    rw [min_eq_right (le_of_lt h)]
    norm_num
  · rename_i h
    rw [min_eq_left (not_lt.1 h)]
    ring

/-- Chances for an even number. -/
theorem even_chance (U : Ω → ℝ) (hU : HasLaw U (volume.restrict (Set.Icc 0 1)) P) (q : ℝ) (hq : Fraction q) :
    P (U ⁻¹' Set.Ioi q) = ENNReal.ofReal (1 - q) ∧ P (U ⁻¹' Set.Iic q) = ENNReal.ofReal q ∧
      P (U ⁻¹' Set.Iio q) = ENNReal.ofReal q ∧ P (U ⁻¹' Set.Ici q) = ENNReal.ofReal (1 - q) := by
  have key : ∀ S : Set ℝ, MeasurableSet S → P (U ⁻¹' S) = volume (S ∩ Set.Icc 0 1) := by
    intro S hS
    rw [← Measure.restrict_apply hS, ← hU.map_eq, Measure.map_apply_of_aemeasurable hU.aemeasurable hS]
  have e1 : Set.Ioi q ∩ Set.Icc 0 1 = Set.Ioc q 1 := by
    ext u
    simp only [Set.mem_inter_iff, Set.mem_Ioi, Set.mem_Icc, Set.mem_Ioc]
    exact ⟨fun ⟨a, _, c⟩ => ⟨a, c⟩, fun ⟨a, c⟩ => ⟨a, hq.1.trans a.le, c⟩⟩
  have e2 : Set.Iic q ∩ Set.Icc 0 1 = Set.Icc 0 q := by
    ext u
    simp only [Set.mem_inter_iff, Set.mem_Iic, Set.mem_Icc]
    exact ⟨fun ⟨a, b, _⟩ => ⟨b, a⟩, fun ⟨a, b⟩ => ⟨b, a, b.trans hq.2⟩⟩
  have e3 : Set.Iio q ∩ Set.Icc 0 1 = Set.Ico 0 q := by
    ext u
    simp only [Set.mem_inter_iff, Set.mem_Iio, Set.mem_Icc, Set.mem_Ico]
    exact ⟨fun ⟨a, b, _⟩ => ⟨b, a⟩, fun ⟨a, b⟩ => ⟨b, a, b.le.trans hq.2⟩⟩
  have e4 : Set.Ici q ∩ Set.Icc 0 1 = Set.Icc q 1 := by
    ext u
    simp only [Set.mem_inter_iff, Set.mem_Ici, Set.mem_Icc]
    exact ⟨fun ⟨a, _, c⟩ => ⟨a, c⟩, fun ⟨a, c⟩ => ⟨a, hq.1.trans a, c⟩⟩
  rw [key _ measurableSet_Ioi, key _ measurableSet_Iic, key _ measurableSet_Iio, key _ measurableSet_Ici,
    e1, e2, e3, e4, Real.volume_Ioc, Real.volume_Icc, Real.volume_Ico, Real.volume_Icc]
  simp

theorem mainSequence_eq (erf : ℝ → ℝ) (p : B17 ℝ) (m z : ℝ) :
    sfms (realFn erf) p m z = 10 ^ mainSequence p m z := by
  have e1 : term2 (realFn erf) p m z = max 0 (lg (m / 10 ^ 9) - p.m1 - p.a2 * lg (1 + z)) := by
    unfold term2
    simp only [realFn]
    show (if lg (m / 10 ^ 9) - p.m1 - p.a2 * lg (1 + z) < 0 then 0 else lg (m / 10 ^ 9) - p.m1 - p.a2 * lg (1 + z)) = _
    split
    · rename_i h; rw [max_eq_left h.le]
    · rename_i h; rw [max_eq_right (not_lt.1 h)]
  have e2 : lowzTerm p z = if p.lowz then 0.1 * max 0 (0.5 - z) / (0.5 - 0.22) else 0 := by
    unfold lowzTerm
    by_cases hl : p.lowz = true
    · simp only [hl, true_and, if_true]
      split
      · rename_i h
        rw [max_eq_right (by norm_num at h ⊢; linarith)]
        norm_num
      · rename_i h
        rw [max_eq_left (by norm_num at h ⊢; linarith)]
        simp
    · simp [hl]
  unfold sfms mainSequence
  rw [e1, e2]
  rfl

/-- The galaxies as functions of chance: a normal and two even numbers each. -/
theorem b17_numbers (hR : Random P R) (hI : Independent P R) (erf : ℝ → ℝ) (p : B17 ℝ) (hlim : 0 ≤ p.limit)
    (hms : p.msoffset ≠ 0) (ms : List (Option ℝ)) (z : Arg ℝ) (zs : List ℝ)
    (hz : (z = .many zs ∧ zs.length = ms.length) ∨ ∃ x, z = .one x ∧ zs = List.replicate ms.length x)
    (w : World G) :
    ∃ (gs : Ω → List (Galaxy ℝ)) (N U V : ℕ → Ω → ℝ),
      (∀ ω, (b17Sfr (realFn erf) (R ω) p ms z w).1 = .ok (gs ω)) ∧ (∀ ω, (gs ω).length = ms.length) ∧
      (∀ i, HasLaw (N i) (gaussianReal 0 1) P ∧ HasLaw (U i) (volume.restrict (Set.Icc 0 1)) P ∧
        HasLaw (V i) (volume.restrict (Set.Icc 0 1)) P) ∧
      ∀ (i : ℕ) (m x : ℝ), ms[i]? = some (some m) → zs[i]? = some x →
        IndepFun (U i) (V i) P ∧ IndepFun (N i) (fun ω => (U i ω, V i ω)) P ∧
        ∀ ω, ∃ g, (gs ω)[i]? = some g ∧ (g.quenched = true ↔ starForming erf p m x < V i ω) ∧
          (g.starburst = true ↔ V i ω ≤ starForming erf p m x ∧ U i ω < bursting x) ∧
          g.sfr = some (if g.quenched then 0 else min p.limit ((if g.starburst then p.sboffset else p.msoffset) *
            (10 ^ mainSequence p m x * 10 ^ (p.sigma * N i ω)))) := by
  choose ns us vs g1 g2 g3 gs h1 h2 h3 h4 h5 h6 using fun ω =>
    C45_flags (realFn erf) (R ω) (hR.lawful ω) p hlim hms ms z zs hz w
  have hP : IsProbabilityMeasure P := by
    obtain ⟨U, -, hU⟩ := hR.uniform 1 w.own
    have : IsProbabilityMeasure (volume.restrict (Set.Icc (0 : ℝ) 1)) := ⟨by simp [Measure.restrict_apply]⟩
    exact (hU 0).isProbabilityMeasure
  rcases isEmpty_or_nonempty Ω with hE | ⟨⟨ω0⟩⟩
  · exact absurd (IsProbabilityMeasure.measure_univ (μ := P)) (by simp [Set.eq_empty_of_isEmpty])
  have s1 : ∀ ω, g1 ω = g1 ω0 := by
    intro ω
    have := hI.normal_moves ms.length w.own ω ω0
    rw [h1 ω, h1 ω0] at this
    exact this
  have s2 : ∀ ω, g2 ω = g2 ω0 := by
    intro ω
    have := hI.uniform_moves ms.length (g1 ω0) ω ω0
    rw [← s1 ω, h2 ω, s1 ω, h2 ω0] at this
    exact this
  obtain ⟨N, hN1, hN2⟩ := hR.normal ms.length w.own
  obtain ⟨U, hU1, hU2⟩ := hR.uniform ms.length (g1 ω0)
  obtain ⟨V, hV1, hV2⟩ := hR.uniform ms.length (g2 ω0)
  have hns : ∀ ω, ns ω = (List.range ms.length).map (fun i => N i ω) := by
    intro ω
    have := hN1 ω
    rw [h1 ω] at this
    exact this
  have hus : ∀ ω, us ω = (List.range ms.length).map (fun i => U i ω) := by
    intro ω
    have := hU1 ω
    rw [← s1 ω, h2 ω] at this
    exact this
  have hvs : ∀ ω, vs ω = (List.range ms.length).map (fun i => V i ω) := by
    intro ω
    have := hV1 ω
    rw [← s2 ω, h3 ω] at this
    exact this
  refine ⟨gs, N, U, V, fun ω => by rw [h4], h5, fun i => ⟨hN2 i, hU2 i, hV2 i⟩, ?_⟩
  intro i m x hm hx
  obtain ⟨hi, -⟩ := List.getElem?_eq_some_iff.1 hm
  have e0 : (fun ω' => ((R ω').normal ms.length w.own).1.getD i 0) = N i := by
    funext ω
    rw [hN1 ω]
    simp [hi]
  have e1 : (fun ω' => ((R ω').uniform ms.length (g1 ω0)).1.getD i 0) = U i := by
    funext ω
    rw [hU1 ω]
    simp [hi]
  have e2 : (fun ω' => ((R ω').uniform ms.length (g2 ω0)).1.getD i 0) = V i := by
    funext ω
    rw [hV1 ω]
    simp [hi]
  refine ⟨?_, ?_, ?_⟩
  · have := hI.uniform_next ms.length (g1 ω0) ω0 i
    rw [h2 ω0] at this
    simp only at this
    rw [e1, e2] at this
    exact this
  · have := hI.normal_next ms.length w.own ω0 i
    rw [h1 ω0] at this
    simp only at this
    rw [h2 ω0] at this
    simp only at this
    rw [e0] at this
    have e3 : (fun ω' => (((R ω').uniform ms.length (g1 ω0)).1.getD i 0,
        ((R ω').uniform ms.length (g2 ω0)).1.getD i 0)) = fun ω => (U i ω, V i ω) := by
      funext ω
      rw [← congrFun e1 ω, ← congrFun e2 ω]
    rw [e3] at this
    exact this
  · intro ω
    obtain ⟨g, a1, a2, a3, a4⟩ := h6 ω i m x (N i ω) (U i ω) (V i ω) hm hx
      (by rw [hns]; simp [hi]) (by rw [hus]; simp [hi]) (by rw [hvs]; simp [hi])
    refine ⟨g, a1, ?_, ?_, ?_⟩
    · rw [a2, starForming_eq]
    · rw [a3, starForming_eq, bursting_eq]
    · rw [a4, mainSequence_eq]
      rfl

/-- **C141, chances.** A galaxy of known stellar mass is quenched with the chance that the published fraction of
star forming galaxies leaves, and a starburst with the published fraction of those that form stars; the star
formation rate of those that are neither, and of starbursts, is scattered by the given width around the main
sequence times the factor of its kind, up to the limit. -/
theorem C141_chances (hR : Random P R) (hI : Independent P R) (erf : ℝ → ℝ) (p : B17 ℝ) (hlim : 0 ≤ p.limit)
    (hms : 0 < p.msoffset) (hsb : 0 < p.sboffset) (ms : List (Option ℝ)) (z : Arg ℝ) (zs : List ℝ)
    (hz : (z = .many zs ∧ zs.length = ms.length) ∨ ∃ x, z = .one x ∧ zs = List.replicate ms.length x)
    (w : World G) :
    ∃ gs : Ω → List (Galaxy ℝ), (∀ ω, (b17Sfr (realFn erf) (R ω) p ms z w).1 = .ok (gs ω)) ∧
      (∀ ω, (gs ω).length = ms.length) ∧
      ∀ (i : ℕ) (m x : ℝ), ms[i]? = some (some m) → zs[i]? = some x → -1 ≤ x →
        Fraction (starForming erf p m x) →
        Chance P gs i (fun g => g.quenched ∧ g.sfr = some 0) (1 - starForming erf p m x) ∧
        Chance P gs i (fun g => g.quenched) (1 - starForming erf p m x) ∧
        Chance P gs i (fun g => g.starburst) (starForming erf p m x * bursting x) ∧
        Chance P gs i (fun g => ¬ g.quenched ∧ ¬ g.starburst) (starForming erf p m x * (1 - bursting x)) ∧
        ∀ r, 0 < r → r < p.limit →
          Chance P gs i (fun g => g.starburst ∧ ∃ y, g.sfr = some y ∧ y ≤ r) (starForming erf p m x * bursting x *
            (gaussianReal (mainSequence p m x + lg p.sboffset) (Real.toNNReal (p.sigma ^ 2))).real (Set.Iic (lg r))) ∧
          Chance P gs i (fun g => (¬ g.quenched ∧ ¬ g.starburst) ∧ ∃ y, g.sfr = some y ∧ y ≤ r)
            (starForming erf p m x * (1 - bursting x) *
              (gaussianReal (mainSequence p m x + lg p.msoffset) (Real.toNNReal (p.sigma ^ 2))).real
                (Set.Iic (lg r))) := by
  obtain ⟨gs, N, U, V, h1, h2, hlaw, h3⟩ := b17_numbers hR hI erf p hlim hms.ne' ms z zs hz w
  refine ⟨gs, h1, h2, ?_⟩
  intro i m x hm hx hx1 hf
  obtain ⟨hN, hU, hV⟩ := hlaw i
  obtain ⟨iUV, iN, hg⟩ := h3 i m x hm hx
  have hP : IsProbabilityMeasure P := hN.isProbabilityMeasure
  have hb : Fraction (bursting x) := by
    rw [← bursting_eq]
    exact C45_starburst_fraction x hx1
  obtain ⟨v1, v2, -, -⟩ := even_chance (V i) hV _ hf
  obtain ⟨-, -, u3, u4⟩ := even_chance (U i) hU _ hb
  have both : ∀ (S T : Set ℝ), MeasurableSet S → MeasurableSet T →
      P (U i ⁻¹' T ∩ V i ⁻¹' S) = P (V i ⁻¹' S) * P (U i ⁻¹' T) := by
    intro S T hS hT
    rw [iUV.measure_inter_preimage_eq_mul _ _ hT hS, mul_comm]
  have three : ∀ (A S T : Set ℝ), MeasurableSet A → MeasurableSet S → MeasurableSet T →
      P (N i ⁻¹' A ∩ (U i ⁻¹' T ∩ V i ⁻¹' S)) = P (V i ⁻¹' S) * P (U i ⁻¹' T) * P (N i ⁻¹' A) := by
    intro A S T hA hS hT
    have := iN.measure_inter_preimage_eq_mul A (T ×ˢ S) hA (hT.prod hS)
    have e : (fun ω => (U i ω, V i ω)) ⁻¹' (T ×ˢ S) = U i ⁻¹' T ∩ V i ⁻¹' S := rfl
    rw [e, both S T hS hT] at this
    rw [this, mul_comm]
  -- the rate is at most `r`
  have rate : ∀ (k : ℝ), 0 < k → ∀ r, 0 < r →
      ∃ A, MeasurableSet A ∧ (∀ ω, N i ω ∈ A ↔ k * (10 ^ mainSequence p m x * 10 ^ (p.sigma * N i ω)) ≤ r) ∧
        P (N i ⁻¹' A) = ENNReal.ofReal
          ((gaussianReal (mainSequence p m x + lg k) (Real.toNNReal (p.sigma ^ 2))).real (Set.Iic (lg r))) := by
    intro k hk r hr
    refine ⟨{n | mainSequence p m x + lg k + p.sigma * n ≤ lg r}, ?_, ?_, ?_⟩
    · exact measurableSet_le (by fun_prop) (by fun_prop)
    · intro ω
      have hpos : 0 < k * (10 ^ mainSequence p m x * 10 ^ (p.sigma * N i ω)) :=
        mul_pos hk (mul_pos (ten_pos _) (ten_pos _))
      have e : lg (k * (10 ^ mainSequence p m x * 10 ^ (p.sigma * N i ω))) =
          mainSequence p m x + lg k + p.sigma * N i ω := by
        rw [lg_mul hk.ne' (mul_pos (ten_pos _) (ten_pos _)).ne', lg_mul (ten_pos _).ne' (ten_pos _).ne', lg_pow,
          lg_pow]
        ring
      rw [Set.mem_setOf_eq, ← e, ← not_lt, lg_lt hr hpos, not_lt]
    · have hl : HasLaw (fun ω => Real.log ((10 : ℝ) ^ (mainSequence p m x + lg k) * 10 ^ (p.sigma * N i ω)) /
          Real.log 10) (gaussianReal (mainSequence p m x + lg k) (Real.toNNReal (p.sigma ^ 2))) P := by
        have := scatter_law (N i) hN (10 ^ (mainSequence p m x + lg k)) p.sigma 0 (ten_pos _)
        have e : Real.log ((10 : ℝ) ^ (mainSequence p m x + lg k)) / Real.log 10 - 0 = mainSequence p m x + lg k := by
          rw [sub_zero]
          exact lg_pow _
        rw [e] at this
        simpa using this
      rw [← hl.map_eq, Measure.real, ENNReal.ofReal_toReal (measure_ne_top _ _),
        Measure.map_apply_of_aemeasurable hl.aemeasurable measurableSet_Iic]
      congr 1
      ext ω
      simp only [Set.mem_preimage, Set.mem_setOf_eq, Set.mem_Iic]
      have : Real.log ((10 : ℝ) ^ (mainSequence p m x + lg k) * 10 ^ (p.sigma * N i ω)) / Real.log 10 =
          mainSequence p m x + lg k + p.sigma * N i ω := by
        have := lg_mul (ten_pos (mainSequence p m x + lg k)).ne' (ten_pos (p.sigma * N i ω)).ne'
        rw [lg_pow, lg_pow] at this
        exact this
      rw [this]
  -- which chances give which galaxies
  have event : ∀ (is : Galaxy ℝ → Prop) (E : Set Ω), (∀ ω g, (gs ω)[i]? = some g →
      (g.quenched = true ↔ starForming erf p m x < V i ω) →
      (g.starburst = true ↔ V i ω ≤ starForming erf p m x ∧ U i ω < bursting x) →
      g.sfr = some (if g.quenched then 0 else min p.limit ((if g.starburst then p.sboffset else p.msoffset) *
            (10 ^ mainSequence p m x * 10 ^ (p.sigma * N i ω)))) → (is g ↔ ω ∈ E)) →
      {ω | ∃ g, (gs ω)[i]? = some g ∧ is g} = E := by
    intro is E h
    ext ω
    obtain ⟨g, a1, a2, a3, a4⟩ := hg ω
    rw [← h ω g a1 a2 a3 a4]
    constructor
    · rintro ⟨g', b1, b2⟩
      rw [a1, Option.some.injEq] at b1
      subst b1
      exact b2
    · intro h
      exact ⟨g, a1, h⟩
  refine ⟨?_, ?_, ?_, ?_, ?_⟩
  · unfold Chance
    rw [event _ (V i ⁻¹' Set.Ioi (starForming erf p m x))]
    · exact ⟨hV.aemeasurable.nullMeasurable measurableSet_Ioi,
        by rw [v1]⟩
    intro ω g _ b2 _ b4
    constructor
    · rintro ⟨h, -⟩
      exact b2.1 h
    · intro h
      have hq := b2.2 h
      refine ⟨hq, ?_⟩
      rw [b4, if_pos hq]
  · unfold Chance
    rw [event _ (V i ⁻¹' Set.Ioi (starForming erf p m x))]
    · exact ⟨hV.aemeasurable.nullMeasurable measurableSet_Ioi,
        by rw [v1]⟩
    intro ω g _ b2 _ _
    exact b2
  · unfold Chance
    rw [event _ (U i ⁻¹' Set.Iio (bursting x) ∩ V i ⁻¹' Set.Iic (starForming erf p m x))]
    · exact ⟨(hU.aemeasurable.nullMeasurable measurableSet_Iio).inter (hV.aemeasurable.nullMeasurable measurableSet_Iic),
        by rw [both _ _ measurableSet_Iic measurableSet_Iio, v2, u3, ENNReal.ofReal_mul hf.1]⟩
    intro ω g _ _ b3 _
    rw [b3]
    exact and_comm
  · unfold Chance
    rw [event _ (U i ⁻¹' Set.Ici (bursting x) ∩ V i ⁻¹' Set.Iic (starForming erf p m x))]
    · exact ⟨(hU.aemeasurable.nullMeasurable measurableSet_Ici).inter (hV.aemeasurable.nullMeasurable measurableSet_Iic),
        by rw [both _ _ measurableSet_Iic measurableSet_Ici, v2, u4, ENNReal.ofReal_mul hf.1]⟩
    intro ω g _ b2 b3 _
    rw [b2, b3, not_lt]
    exact ⟨fun ⟨a, b⟩ => ⟨not_lt.1 (fun hc => b ⟨a, hc⟩), a⟩, fun ⟨a, b⟩ => ⟨b, fun hc => absurd hc.2 (not_lt.2 a)⟩⟩
  · intro r hr hrl
    have small : ∀ y : ℝ, min p.limit y ≤ r ↔ y ≤ r := by
      intro y
      rw [min_le_iff]
      exact ⟨fun h => h.resolve_left (not_le.2 hrl), .inr⟩
    constructor
    · obtain ⟨A, hA, hA1, hA2⟩ := rate p.sboffset hsb r hr
      unfold Chance
      rw [event _ (N i ⁻¹' A ∩ (U i ⁻¹' Set.Iio (bursting x) ∩ V i ⁻¹' Set.Iic (starForming erf p m x)))]
      · exact ⟨(hN.aemeasurable.nullMeasurable hA).inter ((hU.aemeasurable.nullMeasurable measurableSet_Iio).inter (hV.aemeasurable.nullMeasurable measurableSet_Iic)),
          by rw [three _ _ _ hA measurableSet_Iic measurableSet_Iio, v2, u3, hA2, ← ENNReal.ofReal_mul hf.1, ← ENNReal.ofReal_mul (mul_nonneg hf.1 hb.1)]⟩
      intro ω g _ b2 b3 b4
      constructor
      · rintro ⟨c1, y, c2, c3⟩
        have c4 := b3.1 c1
        have hq : ¬ (g.quenched = true) := by rw [b2]; exact not_lt.2 c4.1
        rw [b4, if_neg hq, if_pos c1, Option.some.injEq] at c2
        subst c2
        exact ⟨(hA1 ω).2 ((small _).1 c3), c4.2, c4.1⟩
      · rintro ⟨c1, c2, c3⟩
        have c4 := b3.2 ⟨c3, c2⟩
        have hq : ¬ (g.quenched = true) := by rw [b2]; exact not_lt.2 c3
        refine ⟨c4, _, b4, ?_⟩
        rw [if_neg hq, if_pos c4, small]
        exact (hA1 ω).1 c1
    · obtain ⟨A, hA, hA1, hA2⟩ := rate p.msoffset hms r hr
      unfold Chance
      rw [event _ (N i ⁻¹' A ∩ (U i ⁻¹' Set.Ici (bursting x) ∩ V i ⁻¹' Set.Iic (starForming erf p m x)))]
      · exact ⟨(hN.aemeasurable.nullMeasurable hA).inter ((hU.aemeasurable.nullMeasurable measurableSet_Ici).inter (hV.aemeasurable.nullMeasurable measurableSet_Iic)),
          by rw [three _ _ _ hA measurableSet_Iic measurableSet_Ici, v2, u4, hA2, ← ENNReal.ofReal_mul hf.1, ← ENNReal.ofReal_mul (mul_nonneg hf.1 (sub_nonneg.2 hb.2))]⟩
      intro ω g _ b2 b3 b4
      constructor
      · rintro ⟨⟨hq, hs⟩, y, c2, c3⟩
        rw [b4, if_neg hq, if_neg hs, Option.some.injEq] at c2
        subst c2
        rw [b2, not_lt] at hq
        exact ⟨(hA1 ω).2 ((small _).1 c3), not_lt.1 (fun hc => hs (b3.2 ⟨hq, hc⟩)), hq⟩
      · rintro ⟨c1, c2, c3⟩
        have hq : ¬ (g.quenched = true) := by rw [b2]; exact not_lt.2 c3
        have hs : ¬ (g.starburst = true) := by rw [b3]; exact fun hc => absurd hc.2 (not_lt.2 c2)
        refine ⟨⟨hq, hs⟩, _, b4, ?_⟩
        rw [if_neg hq, if_neg hs, small]
        exact (hA1 ω).1 c1

/-- **C141, numbers.** The average number of quenched galaxies in a catalogue is the sum of their chances. -/
theorem C141_number {gs : Ω → List (Galaxy ℝ)} (n : ℕ) (hn : ∀ ω, (gs ω).length = n) (is : Galaxy ℝ → Bool)
    (q : ℕ → ℝ) (hq : ∀ i < n, 0 ≤ q i) (h : ∀ i < n, Chance P gs i (fun g => is g) (q i)) [IsFiniteMeasure P] :
    ∫ ω, ((gs ω).countP is : ℝ) ∂P = ∑ i ∈ Finset.range n, q i := by
  have count : ∀ l : List (Galaxy ℝ), (l.countP is : ℝ) = ∑ i ∈ Finset.range l.length,
      (if ∃ g, l[i]? = some g ∧ is g = true then 1 else 0 : ℝ) := by
    intro l
    induction l with
    | nil => simp
    | cons a l ih =>
      rw [List.length_cons, Finset.sum_range_succ', List.countP_cons]
      push_cast
      rw [ih]
      simp
  have e : ∀ ω, ((gs ω).countP is : ℝ) = ∑ i ∈ Finset.range n,
      {ω | ∃ g, (gs ω)[i]? = some g ∧ is g = true}.indicator (fun _ => (1 : ℝ)) ω := by
    intro ω
    rw [count, hn]
    refine Finset.sum_congr rfl (fun i _ => ?_)
    simp only [Set.indicator, Set.mem_setOf_eq]
  simp only [e]
  rw [integral_finsetSum _ (fun i hi => (integrable_const 1).indicator₀ (h i (Finset.mem_range.1 hi)).1)]
  refine Finset.sum_congr rfl (fun i hi => ?_)
  rw [integral_indicator₀ (h i (Finset.mem_range.1 hi)).1, setIntegral_const, Measure.real,
    (h i (Finset.mem_range.1 hi)).2, ENNReal.toReal_ofReal (hq i (Finset.mem_range.1 hi))]
  simp

/-! ## Examples -/

theorem streams_independent : Independent chance streams where
  normal_moves := fun n g ω ω' => rfl
  uniform_moves := fun n g ω ω' => rfl
  uniform_next := fun n g ω i => by
    by_cases hi : i < n
    · have e1 : (fun ω' : (ℕ → ℝ) × (ℕ → ℝ) => ((streams ω').uniform n g).1.getD i 0) = fun ω' => ω'.2 (g + i) := by
        funext ω'
        simp [streams, hi]
      have e2 : (fun ω' : (ℕ → ℝ) × (ℕ → ℝ) => ((streams ω').uniform n ((streams ω).uniform n g).2).1.getD i 0) =
          fun ω' => ω'.2 (g + n + i) := by
        funext ω'
        simp [streams, hi]
      rw [e1, e2]
      have h := (iIndepFun_infinitePi (P := fun _ : ℕ => volume.restrict (Set.Icc (0 : ℝ) 1))
        (X := fun _ x => x) (fun _ => measurable_id)).indepFun (i := g + i) (j := g + n + i) (by omega)
      rw [indepFun_iff_measure_inter_preimage_eq_mul] at h ⊢
      intro S T hS hT
      have hp : MeasurePreserving Prod.snd chance
          (Measure.infinitePi (fun _ : ℕ => volume.restrict (Set.Icc (0 : ℝ) 1))) := measurePreserving_snd
      have m : ∀ (k : ℕ) (S : Set ℝ), MeasurableSet S →
          MeasurableSet ((fun f : ℕ → ℝ => f k) ⁻¹' S) := fun k S hS => measurable_pi_apply k hS
      have := h S T hS hT
      rw [← hp.measure_preimage ((m _ S hS).inter (m _ T hT)).nullMeasurableSet,
        ← hp.measure_preimage (m _ S hS).nullMeasurableSet,
        ← hp.measure_preimage (m _ T hT).nullMeasurableSet] at this
      exact this
    · have e1 : (fun ω' : (ℕ → ℝ) × (ℕ → ℝ) => ((streams ω').uniform n g).1.getD i 0) = fun _ => 0 := by
        funext ω'
        simp [streams, hi]
      rw [e1]
      have : IsProbabilityMeasure chance := by unfold chance; infer_instance
      exact indepFun_const_left 0 _
  normal_next := fun n g ω i => by
    have m2 : ∀ g, Measurable (fun f : ℕ → ℝ => ((List.range n).map (fun j => f (g + j))).getD i 0) := by
      intro g
      by_cases hi : i < n
      · have : (fun f : ℕ → ℝ => ((List.range n).map (fun j => f (g + j))).getD i 0) = fun f => f (g + i) := by
          funext f; simp [hi]
        rw [this]; exact measurable_pi_apply _
      · have : (fun f : ℕ → ℝ => ((List.range n).map (fun j => f (g + j))).getD i 0) = fun f => 0 := by
          funext f; simp [hi]
        rw [this]; exact measurable_const
    exact indepFun_prod (m2 g) ((m2 (g + n)).prodMk (m2 (g + n + n)))

/-- The default parameters, a known and an unknown stellar mass at redshift 3/2: three per cent of the star
forming galaxies are starbursts. -/
example (erf : ℝ → ℝ) (he : ∀ x, -1 ≤ erf x ∧ erf x ≤ 1) (w : World ℕ) :
    ∃ gs : (ℕ → ℝ) × (ℕ → ℝ) → List (Galaxy ℝ),
      (∀ ω, (b17Sfr (realFn erf) (streams ω) b17Default [some (10 ^ 10), none] (.one (3 / 2)) w).1 = .ok (gs ω)) ∧
      Chance chance gs 0 (fun g => g.starburst) (starForming erf b17Default (10 ^ 10) (3 / 2) * 0.03) ∧
      Fraction (starForming erf b17Default (10 ^ 10) (3 / 2)) := by
  have hf : Fraction (starForming erf b17Default (10 ^ 10) (3 / 2)) := by
    rw [← starForming_eq]
    exact C45_starforming_default erf he _ _ (by norm_num)
  obtain ⟨gs, h1, -, h2⟩ := C141_chances streams_random streams_independent erf b17Default
    (by norm_num [b17Default]) (by norm_num [b17Default]) (by norm_num [b17Default]) [some (10 ^ 10), none]
    (.one (3 / 2)) _ (.inr ⟨_, rfl, rfl⟩) w
  obtain ⟨-, -, h3, -⟩ := h2 0 _ _ rfl rfl (by norm_num) hf
  refine ⟨gs, h1, ?_, hf⟩
  have : bursting (3 / 2) = 0.03 := by
    unfold bursting
    rw [min_eq_right (by norm_num)]
    norm_num
  rw [this] at h3
  exact h3

end Verif.Gal
