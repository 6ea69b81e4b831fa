import Verif.Spec.NoiseOnly
import Verif.Props.WhiteNoise

/-!
# C153: signal, noise, and both
-/

namespace Verif.Inst

open MeasureTheory ProbabilityTheory
open Verif.Map (Grid Arr BeamNorm PadArg)
open Spec

section
variable {F D G : Type} [DecidableEq F] [DecidableEq D]

theorem field_alone (lib : Lib F D ℝ G ℝ) (s : State F D (Point ℝ) (Grid ℝ ℝ) (Arr ℝ) (Grid ℝ ℝ) ℝ)
    (hn : s.detNames.Nodup) (next : G → ℝ × G) (rms bias : Name → ℝ)
    (hd : ∀ d ∈ s.detNames, 0 ≤ rms d ∧ White lib s next d (rms d) (bias d)) (dt : ℝ) (hdt : 0 < dt)
    (a b : SampleArgs (Point ℝ) ℝ G) (hp : b.positions = a.positions) (hsb : b.signal = false)
    (hb : b.withNoise = true) (hbd : b.dt = some dt) (groups : List (List Name))
    (hgr : cloneGroups (samePointing s) s.detNames = .ok groups) (f : Name) (out : List (List (Option ℝ)))
    (h : sampleField (grids lib) s groups a f = .ok out) :
    sampleField (grids lib) s groups b f = .ok (s.detNames.map (fun d =>
      (List.range a.positions.length).map (fun t => some (level next dt rms bias b.seed f d t)))) := by
  rcases hm : s.maps.get? f with - | md
  · unfold sampleField at h; rw [hm] at h; cases h
  obtain ⟨-, l1, -⟩ := sampleField_spec (grids lib) s hn a f groups hgr md hm out h
  have hne : out ≠ [] := by
    rintro rfl
    unfold sampleField at h
    split at h
    · cases h
    split at h
    · cases h
    split at h
    · cases h
    · cases h
    · split at h <;> cases h
  have hdn : s.detNames ≠ [] := by
    intro e
    rw [e] at l1
    exact hne (List.length_eq_zero_iff.1 l1)
  unfold sampleField
  rw [hm]
  simp only
  rw [mapE_each (noiseOf (grids lib) s b f) (fun d => (List.range b.positions.length).map (fun t =>
    some (level next dt rms bias b.seed f d t))) s.detNames
    (fun d h => white_noise lib s next d rms bias (hd d h).2 (hd d h).1 dt hdt b hb hbd f), hp]
  simp only [hsb, Bool.false_eq_true, if_false]
  rcases hl : s.detNames with - | ⟨d, ds⟩
  · exact absurd hl hdn
  simp only [List.map_cons]
  rw [if_pos]
  rw [List.all_eq_true]
  intro x hx
  obtain ⟨d', -, rfl⟩ := List.mem_map.1 hx
  simp

/-- **C153**: with the same random numbers, samples of the noise alone are the numbers that white noise adds to the
samples of the signal: samples with signal and noise are the samples of the signal alone, with the samples of the noise
alone added.  The distribution of the numbers is that of C149.  Noise alone has no NaN. -/
theorem C153_parts {Ω : Type} [MeasurableSpace Ω] {P : Measure Ω} (lib : Lib F D ℝ G ℝ) (x : Setup F D ℝ)
    (ops : List (Op F D (Point ℝ) (Grid ℝ ℝ) (Arr ℝ) (Grid ℝ ℝ) ℝ (BeamNorm × PadArg)))
    (s : State F D (Point ℝ) (Grid ℝ ℝ) (Arr ℝ) (Grid ℝ ℝ) ℝ) (hs : s = run (grids lib) (fresh x) ops)
    (next : G → ℝ × G) (seed : Ω → Name → Name → G) (hseed : Fresh P next seed) (rms bias : Name → ℝ)
    (hd : ∀ d ∈ s.detNames, 0 ≤ rms d ∧ White lib s next d (rms d) (bias d)) (dt : ℝ) (hdt : 0 < dt)
    (names : List Name) (a : SampleArgs (Point ℝ) ℝ G) (out : List (Name × List (List (Option ℝ))))
    (h : sampleFields (grids lib) s names { a with signal := true, withNoise := false } = .ok out) :
    ∃ Z : Name → Name → ℕ → Ω → ℝ,
      (∀ ω, sampleFields (grids lib) s names
        { a with signal := true, withNoise := true, dt := some dt, seed := seed ω } =
          .ok (noisy s.detNames (fun f d t => Z f d t ω) out)) ∧
      (∀ ω, sampleFields (grids lib) s names
        { a with signal := false, withNoise := true, dt := some dt, seed := seed ω } =
          .ok (noiseAlone (out.map Prod.fst) s.detNames a.positions.length (fun f d t => Z f d t ω))) ∧
      (∀ f d t, HasLaw (Z f d t) (gaussianReal (bias d) (rms d ^ 2 / dt).toNNReal) P) ∧
      iIndepFun (fun i : Name × Name × ℕ => Z i.1 i.2.1 i.2.2) P := by
  have ho : Ordered s := hs ▸ run_ordered (grids lib) ops _ (fresh_ordered x)
  refine ⟨fun f d t ω => level next dt rms bias (seed ω) f d t,
    fun ω => samples_level lib x ops s hs next (seed ω) rms bias hd dt hdt names a out h, fun ω => ?_,
    level_law next seed hseed rms bias dt hdt, level_indep next seed hseed rms bias dt⟩
  unfold sampleFields at h ⊢
  rcases h1 : chosenFields s names with e | fs
  · rw [h1] at h; cases h
  rw [h1] at h
  simp only at h ⊢
  rcases h2 : mapE (checkConsistent s) fs with e | us
  · rw [h2] at h; cases h
  rw [h2] at h
  simp only [Bool.and_false, Bool.and_true, Bool.false_eq_true, if_false, Option.isNone_some,
    Bool.not_true, Bool.not_false, Bool.false_and] at h ⊢
  split at h
  · cases h
  rename_i hshape
  rw [if_neg hshape]
  rcases h3 : cloneGroups (samePointing s) s.detNames with e | groups
  · rw [h3] at h; cases h
  rw [h3] at h
  simp only at h ⊢
  unfold noiseAlone
  rw [List.map_map]
  refine mapE_swap _ _ _ _ _ ?_ h
  intro f _ y hy
  rcases h4 : sampleField (grids lib) s groups { a with signal := true, withNoise := false } f with e | c
  · rw [h4] at hy; cases hy
  rw [h4] at hy
  simp only [Except.ok.injEq] at hy
  subst hy
  rw [field_alone lib s ho.detNodup next rms bias hd dt hdt { a with signal := true, withNoise := false }
    { a with signal := false, withNoise := true, dt := some dt, seed := seed ω } rfl rfl rfl rfl groups h3 f c h4]
  rfl

end

/-- The detector of the example of C149, pointed at a point of value 3: signal alone 3/2, noise alone `z`, both their
sum. -/
example : ∃ (s : State Unit Unit (Point ℝ) (Grid ℝ ℝ) (Arr ℝ) (Grid ℝ ℝ) ℝ) (c : List (Option ℝ))
    (z : ℕ → (Name × Name × ℕ → ℝ) → ℝ),
    mapFields (grids hissLib) (hissState 3) ["sky"] { kernel := some (.pair 3 3), opts := (.peak, .none) } = (s, .ok ()) ∧
    sampleFields (grids hissLib) s ["sky"] hissArgs = .ok [("sky", [c])] ∧ (∀ t < 4, c[t]? = some (some (3 / 2))) ∧
    (∀ ω, sampleFields (grids hissLib) s ["sky"]
      { positions := List.replicate 4 ⟨false, 0, 0⟩, signal := false, dt := some (1 / 4),
        seed := fun f d t => ω (f, d, t) } =
        .ok [("sky", [(List.range 4).map (fun t => some (z t ω))])]) ∧
    HasLaw (z 2) (gaussianReal (1 / 2) (2 ^ 2 / (1 / 4) : ℝ).toNNReal) hiss := by
  obtain ⟨s, c, h1, hrun, hdets, k1, h2, hval⟩ := hiss_sampled 3
  obtain ⟨Z, -, z1, z2, -⟩ := C153_parts hissLib hissSetup _ s hrun tape _ hiss_fresh (fun _ => 2) (fun _ => 1 / 2) (by
      intro d hd
      rw [k1] at hd
      simp only [List.mem_cons, List.not_mem_nil, or_false] at hd
      subst hd
      exact ⟨by norm_num, hiss_white 3 s hdets⟩) (1 / 4) (by norm_num) ["sky"] hissArgs _ h2
  rw [k1] at z1
  refine ⟨s, c, Z "sky" "a", h1, h2, hval, fun ω => ?_, z2 "sky" "a" 2⟩
  have := z1 ω
  simp only [hissArgs, List.length_replicate] at this
  exact this

end Verif.Inst
