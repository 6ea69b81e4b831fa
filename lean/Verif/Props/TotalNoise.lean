import Mathlib.Probability.Independence.Integration
import Verif.Spec.TotalNoise
import Verif.Props.WhiteNoise

/-!
# C150: noise of the detectors and of the sky together
-/

namespace Verif.Inst

open MeasureTheory ProbabilityTheory
open Verif.Map (Grid Arr BeamNorm PadArg)
open Spec

section
variable {F D G : Type} [DecidableEq F] [DecidableEq D]

theorem sampled_noisy (dets : List Name) (z : Name → Name → ℕ → ℝ) (out : List (Name × List (List (Option ℝ))))
    (j : ℕ) (f : Name) (i t : ℕ) (x : ℝ) (d : Name) (hd : dets[i]? = some d) (h : Sampled out j f i t x) :
    Sampled (noisy dets z out) j f i t (z f d t + x) := by
  obtain ⟨cols, c, h1, h2, h3⟩ := h
  refine ⟨_, c.zipIdx.map (fun e => e.1.map (z f d e.2 + ·)), by unfold noisy; rw [List.getElem?_map, h1]; rfl, ?_, ?_⟩
  · have e4 : (dets.zip cols)[i]? = some (d, c) := by
      rw [List.getElem?_zip_eq_some]; exact ⟨hd, h2⟩
    rw [List.getElem?_map, e4]; rfl
  · rw [List.getElem?_map, List.getElem?_zipIdx, h3]
    simp

theorem sampled_unique (out : List (Name × List (List (Option ℝ)))) (j : ℕ) (f : Name) (i t : ℕ) (x y : ℝ)
    (h : Sampled out j f i t x) (h' : Sampled out j f i t y) : x = y := by
  obtain ⟨cols, c, h1, h2, h3⟩ := h
  obtain ⟨cols', c', k1, k2, k3⟩ := h'
  rw [h1] at k1; cases k1
  rw [h2] at k2; cases k2
  rw [h3] at k3; cases k3
  rfl

/-- Averages and covariances of sums of a number from one source and one from another. -/
theorem sum_moments {Ω Ω' : Type} [MeasurableSpace Ω] [MeasurableSpace Ω'] (P : Measure Ω) (Q : Measure Ω')
    [IsProbabilityMeasure P] [IsProbabilityMeasure Q] (v v' : Ω → ℝ) (z z' : Ω' → ℝ) (hv : MemLp v 2 P)
    (hv' : MemLp v' 2 P) (hz : MemLp z 2 Q) (hz' : MemLp z' 2 Q) :
    ∫ p, z p.2 + v p.1 ∂(P.prod Q) = ∫ ω, v ω ∂P + ∫ ω, z ω ∂Q ∧
    cov[fun p => z p.2 + v p.1, fun p => z' p.2 + v' p.1; P.prod Q] = cov[v, v'; P] + cov[z, z'; Q] := by
  have f1 : MeasurePreserving (Prod.fst : Ω × Ω' → Ω) (P.prod Q) P := measurePreserving_fst
  have f2 : MeasurePreserving (Prod.snd : Ω × Ω' → Ω') (P.prod Q) Q := measurePreserving_snd
  have m : ∀ v : Ω → ℝ, MemLp v 2 P → MemLp (fun p : Ω × Ω' => v p.1) 2 (P.prod Q) := fun v h =>
    h.comp_measurePreserving f1
  have m' : ∀ v : Ω' → ℝ, MemLp v 2 Q → MemLp (fun p : Ω × Ω' => v p.2) 2 (P.prod Q) := fun v h =>
    h.comp_measurePreserving f2
  have i1 : ∀ v : Ω → ℝ, ∫ p, v p.1 ∂(P.prod Q) = ∫ ω, v ω ∂P := by
    intro v
    rw [integral_fun_fst]; simp
  have i2 : ∀ v : Ω' → ℝ, ∫ p, v p.2 ∂(P.prod Q) = ∫ ω, v ω ∂Q := by
    intro v
    rw [integral_fun_snd]; simp
  have c0 : ∀ (v : Ω → ℝ) (z : Ω' → ℝ), MemLp v 2 P → MemLp z 2 Q →
      cov[fun p => v p.1, fun p => z p.2; P.prod Q] = 0 := by
    intro v z hv hz
    rw [covariance_eq_sub (m v hv) (m' z hz), i1 v, i2 z]
    simp only [Pi.mul_apply]
    rw [integral_prod_mul, sub_self]
  constructor
  · rw [integral_add ((m' z hz).integrable (by norm_num)) ((m v hv).integrable (by norm_num)), i1 v, i2 z,
      add_comm]
  · have e : ∀ (v : Ω → ℝ) (z : Ω' → ℝ), (fun p : Ω × Ω' => z p.2 + v p.1) = (fun p => z p.2) + fun p => v p.1 :=
      fun _ _ => rfl
    rw [e, e, covariance_add_left (m' z hz) (m v hv) ((m' z' hz').add (m v' hv')),
      covariance_add_right (m' z hz) (m' z' hz') (m v' hv'), covariance_add_right (m v hv) (m' z' hz') (m v' hv'),
      c0 v z' hv hz', covariance_comm (fun p : Ω × Ω' => z p.2) (fun p => v' p.1), c0 v' z hv' hz, add_zero, zero_add,
      covariance_eq_sub (m v hv) (m v' hv'), covariance_eq_sub (m' z hz) (m' z' hz'), covariance_eq_sub hv hv',
      covariance_eq_sub hz hz', i1 v, i1 v', i2 z, i2 z']
    have e1 := i1 (v * v')
    have e2 := i2 (z * z')
    simp only [Pi.mul_apply] at e1 e2 ⊢
    rw [e1, e2]
    ring

/-- **C150**: a sky that varies, observed with white noise.  The samples without noise vary with the sky (`P`), the
generators of the noise are independent of it (`Q`).  With noise every sample is on average the average sample without
noise plus the bias of its detector; the covariance of two samples is that of the samples without noise, and the noise
adds `rms² / dt` to the variance of each sample and nothing to the covariance of different samples. -/
theorem C150_covariance {Ω Ω' : Type} [MeasurableSpace Ω] [MeasurableSpace Ω'] (P : Measure Ω) (Q : Measure Ω')
    [IsProbabilityMeasure P] [IsProbabilityMeasure Q] (lib : Lib F D ℝ G ℝ)
    (s : Ω → State F D (Point ℝ) (Grid ℝ ℝ) (Arr ℝ) (Grid ℝ ℝ) ℝ)
    (hs : ∀ ω, ∃ (x : Setup F D ℝ) (ops : List (Op F D (Point ℝ) (Grid ℝ ℝ) (Arr ℝ) (Grid ℝ ℝ) ℝ (BeamNorm × PadArg))),
      s ω = run (grids lib) (fresh x) ops)
    (dets : List Name) (hdets : ∀ ω, (s ω).detNames = dets)
    (next : G → ℝ × G) (seed : Ω' → Name → Name → G) (hseed : Fresh Q next seed) (rms bias : Name → ℝ)
    (hd : ∀ ω, ∀ d ∈ dets, 0 ≤ rms d ∧ White lib (s ω) next d (rms d) (bias d)) (dt : ℝ) (hdt : 0 < dt)
    (names : List Name) (a : SampleArgs (Point ℝ) ℝ G) (out : Ω → List (Name × List (List (Option ℝ))))
    (h : ∀ ω, sampleFields (grids lib) (s ω) names { a with signal := true, withNoise := false } = .ok (out ω)) :
    ∃ out' : Ω × Ω' → List (Name × List (List (Option ℝ))),
      (∀ p, sampleFields (grids lib) (s p.1) names
        { a with signal := true, withNoise := true, dt := some dt, seed := seed p.2 } = .ok (out' p)) ∧
      ∀ (j j' : ℕ) (f f' : Name) (i i' : ℕ) (d d' : Name) (t t' : ℕ) (v v' : Ω → ℝ),
        dets[i]? = some d → dets[i']? = some d' → (∀ ω, Sampled (out ω) j f i t (v ω)) →
        (∀ ω, Sampled (out ω) j' f' i' t' (v' ω)) → MemLp v 2 P → MemLp v' 2 P →
        ∃ u u' : Ω × Ω' → ℝ, (∀ p, Sampled (out' p) j f i t (u p)) ∧ (∀ p, Sampled (out' p) j' f' i' t' (u' p)) ∧
          ∫ p, u p ∂(P.prod Q) = ∫ ω, v ω ∂P + bias d ∧
          cov[u, u'; P.prod Q] = cov[v, v'; P] + if f = f' ∧ d = d' ∧ t = t' then rms d ^ 2 / dt else 0 := by
  refine ⟨fun p => noisy dets (level next dt rms bias (seed p.2)) (out p.1), ?_, ?_⟩
  · intro p
    obtain ⟨x, ops, hx⟩ := hs p.1
    have := samples_level lib x ops (s p.1) hx next (seed p.2) rms bias (by rw [hdets]; exact hd p.1) dt hdt names a
      (out p.1) (h p.1)
    rw [hdets] at this
    exact this
  · intro j j' f f' i i' d d' t t' v v' hi hi' hv hv' m m'
    have law := level_law next seed hseed rms bias dt hdt
    have h2 : ∀ f d t, MemLp (fun ω => level next dt rms bias (seed ω) f d t) 2 Q := by
      intro f d t
      have hm : MemLp id 2 (Q.map (fun ω => level next dt rms bias (seed ω) f d t)) := by
        rw [(law f d t).map_eq]; exact memLp_id_gaussianReal 2
      exact (memLp_map_measure_iff (by fun_prop) (law f d t).aemeasurable).1 hm
    obtain ⟨e1, e2⟩ := sum_moments P Q v v' (fun ω => level next dt rms bias (seed ω) f d t)
      (fun ω => level next dt rms bias (seed ω) f' d' t') m m' (h2 f d t) (h2 f' d' t')
    refine ⟨_, _, fun p => sampled_noisy dets _ _ j f i t _ d hi (hv p.1),
      fun p => sampled_noisy dets _ _ j' f' i' t' _ d' hi' (hv' p.1), ?_, ?_⟩
    · rw [e1, (law f d t).integral_eq, integral_id_gaussianReal]
    · rw [e2]
      congr 1
      split
      · next hh =>
        obtain ⟨rfl, rfl, rfl⟩ := hh
        rw [covariance_self (h2 f d t).aestronglyMeasurable.aemeasurable, (law f d t).variance_eq,
          variance_id_gaussianReal, Real.coe_toNNReal _ (by positivity)]
      · next hh =>
        refine IndepFun.covariance_eq_zero ?_ (h2 f d t) (h2 f' d' t')
        exact (level_indep next seed hseed rms bias dt).indepFun (i := (f, d, t)) (j := (f', d', t')) (by
          intro h
          simp only [Prod.mk.injEq] at h
          exact hh h)

end

/-- The detector with white noise of the example of C149, observing a point whose value follows the normal distribution
around 3 with variance 1: two samples of a quarter of a second each have in common the variance of the sky, 1/4; the
variance of one sample is larger by 16. -/
example : ∃ (s : ℝ → State Unit Unit (Point ℝ) (Grid ℝ ℝ) (Arr ℝ) (Grid ℝ ℝ) ℝ)
    (out : ℝ × (Name × Name × ℕ → ℝ) → List (Name × List (List (Option ℝ)))) (u u' : ℝ × (Name × Name × ℕ → ℝ) → ℝ),
    (∀ v, mapFields (grids hissLib) (hissState v) ["sky"] { kernel := some (.pair 3 3), opts := (.peak, .none) } =
      (s v, .ok ())) ∧
    (∀ p, sampleFields (grids hissLib) (s p.1) ["sky"]
      { positions := List.replicate 4 ⟨false, 0, 0⟩, dt := some (1 / 4), seed := fun f d t => p.2 (f, d, t) } =
        .ok (out p) ∧ Sampled (out p) 0 "sky" 0 0 (u p) ∧ Sampled (out p) 0 "sky" 0 1 (u' p)) ∧
    ∫ p, u p ∂((gaussianReal 3 1).prod hiss) = 2 ∧ cov[u, u'; (gaussianReal 3 1).prod hiss] = 1 / 4 ∧
    cov[u, u; (gaussianReal 3 1).prod hiss] = 1 / 4 + 16 := by
  choose s c h1 hrun hdets k1 h2 hval using hiss_sampled
  have : IsProbabilityMeasure hiss := (hiss_fresh.law "" "" 0).isProbabilityMeasure
  obtain ⟨out, o1, o2⟩ := C150_covariance (gaussianReal 3 1) hiss hissLib s (fun v => ⟨_, _, hrun v⟩) ["a"] k1 tape _
    hiss_fresh (fun _ => 2) (fun _ => 1 / 2) (by
      intro v d hd
      simp only [List.mem_cons, List.not_mem_nil, or_false] at hd
      subst hd
      exact ⟨by norm_num, hiss_white v (s v) (hdets v)⟩) (1 / 4) (by norm_num) ["sky"] hissArgs _ h2
  have hm : MemLp (fun v : ℝ => v / 2) 2 (gaussianReal 3 1) := by
    have := (memLp_id_gaussianReal (μ := 3) (v := 1) 2).mul_const (2⁻¹ : ℝ)
    exact this
  have hsm : ∀ t < 4, ∀ v : ℝ, Sampled [("sky", [c v])] 0 "sky" 0 t (v / 2) := fun t ht v =>
    ⟨[c v], c v, rfl, rfl, hval v t ht⟩
  have hvar : cov[fun v : ℝ => v / 2, fun v : ℝ => v / 2; gaussianReal 3 1] = 1 / 4 := by
    rw [covariance_self hm.aestronglyMeasurable.aemeasurable]
    have : (fun v : ℝ => v / 2) = fun v => (1 / 2) * id v := by funext v; simp; ring
    rw [this, variance_const_mul, variance_id_gaussianReal]
    norm_num
  have hmean : ∫ v : ℝ, v / 2 ∂(gaussianReal 3 1) = 3 / 2 := by
    rw [integral_div, integral_id_gaussianReal]
  obtain ⟨u, u', q1, q2, q3, q4⟩ := o2 0 0 "sky" "sky" 0 0 "a" "a" 0 1 _ _ rfl rfl (hsm 0 (by decide)) (hsm 1 (by decide))
    hm hm
  obtain ⟨w, w', r1, r2, r3, r4⟩ := o2 0 0 "sky" "sky" 0 0 "a" "a" 0 0 _ _ rfl rfl (hsm 0 (by decide)) (hsm 0 (by decide))
    hm hm
  have e1 : w = u := funext (fun p => sampled_unique _ _ _ _ _ _ _ (r1 p) (q1 p))
  have e2 : w' = u := funext (fun p => sampled_unique _ _ _ _ _ _ _ (r2 p) (q1 p))
  rw [e1, e2] at r4
  refine ⟨s, out, u, u', h1, fun p => ⟨o1 p, q1 p, q2 p⟩, ?_, ?_, ?_⟩
  · rw [q3, hmean]; norm_num
  · rw [q4, hvar]; norm_num
  · rw [r4, hvar]; norm_num

end Verif.Inst
