import Verif.Spec.SharedNoise
import Verif.Props.WhiteNoise

/-!
# C152: white noise from one generator for all detectors
-/

namespace Verif.Inst

open MeasureTheory ProbabilityTheory
open Verif.Map (Grid Arr BeamNorm PadArg)
open Spec

section
variable {F D G : Type} [DecidableEq F] [DecidableEq D]

theorem draw_after (next : G → ℝ × G) (t k : ℕ) (g : G) : draw next t (after next k g) = draw next (k + t) g := by
  induction k generalizing g with
  | zero => rw [Nat.zero_add]; rfl
  | succ k ih =>
    rw [show k + 1 + t = (k + t) + 1 by omega]
    exact ih _

theorem draws_after (next : G → ℝ × G) (n : ℕ) (g : G) : (draws next n g).2 = after next n g := by
  induction n generalizing g with
  | zero => rfl
  | succ n ih => exact ih _

/-- Places of different numbers in the stream are different. -/
theorem place_inj (n w i i' j j' t t' : ℕ) (hj : j < w) (hj' : j' < w) (ht : t < n) (ht' : t' < n)
    (h : (i * w + j) * n + t = (i' * w + j') * n + t') : i = i' ∧ j = j' ∧ t = t' := by
  have key : ∀ {a b m x y : ℕ}, x < m → y < m → a * m + x = b * m + y → a = b ∧ x = y := by
    intro a b m x y hx hy h
    have h1 : (a * m + x) / m = a := by
      rw [Nat.mul_comm, Nat.mul_add_div (by omega), Nat.div_eq_of_lt hx, Nat.add_zero]
    have h2 : (b * m + y) / m = b := by
      rw [Nat.mul_comm, Nat.mul_add_div (by omega), Nat.div_eq_of_lt hy, Nat.add_zero]
    have : a = b := by rw [← h1, ← h2, h]
    subst this
    exact ⟨rfl, by omega⟩
  obtain ⟨h1, h2⟩ := key ht ht' h
  obtain ⟨h3, h4⟩ := key hj hj' h1
  exact ⟨h3, h4, h2⟩

/-- `white_noise` leaves its generator after as many numbers as samples. -/
theorem noise_left (next : G → ℝ × G) (n : ℕ) (dt rms bias : ℝ) (g : G) (hr : 0 ≤ rms) :
    (whiteNoise next n dt rms bias g).2 = after next n g := by
  unfold whiteNoise
  rw [if_neg (by rintro ⟨_, h⟩; linarith)]
  split <;> exact draws_after next n g

theorem after_after (next : G → ℝ × G) (k n : ℕ) (g : G) : after next n (after next k g) = after next (k + n) g := by
  induction k generalizing g with
  | zero => rw [Nat.zero_add]; rfl
  | succ k ih =>
    rw [show k + 1 + n = (k + n) + 1 by omega]
    exact ih _

/-- **C152**: what `handed` means.  The first detector gets the generator itself for the first field; each other
detector gets it as `white_noise` left it for the detector before; and for each other field the first detector gets it
as `white_noise` left it for the last detector in the field before. -/
theorem C152_handed (next : G → ℝ × G) (n : ℕ) (fields dets : List Name) (hf : fields.Nodup) (hn : dets.Nodup) (g : G)
    (dt rms bias : ℝ) (hr : 0 ≤ rms) :
    (∀ f d, fields[0]? = some f → dets[0]? = some d → handed next n fields dets g f d = g) ∧
    (∀ f i d d', dets[i]? = some d → dets[i + 1]? = some d' → handed next n fields dets g f d' =
      (whiteNoise next n dt rms bias (handed next n fields dets g f d)).2) ∧
    (∀ k f f' d d', fields[k]? = some f → fields[k + 1]? = some f' → dets[dets.length - 1]? = some d →
      dets[0]? = some d' → handed next n fields dets g f' d' =
        (whiteNoise next n dt rms bias (handed next n fields dets g f d)).2) := by
  have at' : ∀ (l : List Name), l.Nodup → ∀ i d, l[i]? = some d → l.idxOf d = i := by
    intro l hl i d h
    obtain ⟨hi, rfl⟩ := List.getElem?_eq_some_iff.1 h
    exact hl.idxOf_getElem i hi
  refine ⟨fun f d h1 h2 => ?_, fun f i d d' h1 h2 => ?_, fun k f f' d d' h1 h2 h3 h4 => ?_⟩
  · unfold handed
    rw [at' _ hf _ _ h1, at' _ hn _ _ h2]
    simp [after]
  · rw [noise_left _ _ _ _ _ _ hr]
    unfold handed
    rw [after_after, at' _ hn _ _ h1, at' _ hn _ _ h2]
    congr 1
    ring
  · rw [noise_left _ _ _ _ _ _ hr]
    unfold handed
    rw [after_after, at' _ hf _ _ h1, at' _ hf _ _ h2, at' _ hn _ _ h3, at' _ hn _ _ h4]
    have hl : 1 ≤ dets.length := by
      have := (List.getElem?_eq_some_iff.1 h4).1
      omega
    obtain ⟨m, hm⟩ : ∃ m, dets.length = m + 1 := ⟨dets.length - 1, by omega⟩
    rw [hm, Nat.add_sub_cancel]
    congr 1
    ring

/-- **C152**: with one generator for the noise of all detectors, handed from call to call, each sample still gets its own
number with the distribution of C149, and the numbers of all samples are independent. -/
theorem C152_shared {Ω : Type} [MeasurableSpace Ω] {P : Measure Ω} (lib : Lib F D ℝ G ℝ) (x : Setup F D ℝ)
    (ops : List (Op F D (Point ℝ) (Grid ℝ ℝ) (Arr ℝ) (Grid ℝ ℝ) ℝ (BeamNorm × PadArg)))
    (s : State F D (Point ℝ) (Grid ℝ ℝ) (Arr ℝ) (Grid ℝ ℝ) ℝ) (hs : s = run (grids lib) (fresh x) ops)
    (next : G → ℝ × G) (g : Ω → G) (hg : Stream P next g) (rms bias : Name → ℝ)
    (hd : ∀ d ∈ s.detNames, 0 ≤ rms d ∧ White lib s next d (rms d) (bias d)) (dt : ℝ) (hdt : 0 < dt)
    (names : List Name) (a : SampleArgs (Point ℝ) ℝ G) (out : List (Name × List (List (Option ℝ))))
    (h : sampleFields (grids lib) s names { a with signal := true, withNoise := false } = .ok out)
    (_hnd : (out.map Prod.fst).Nodup) :
    ∃ Z : Name → Name → ℕ → Ω → ℝ,
      (∀ ω, sampleFields (grids lib) s names
        { a with signal := true, withNoise := true, dt := some dt,
                 seed := handed next a.positions.length (out.map Prod.fst) s.detNames (g ω) } =
          .ok (noisy s.detNames (fun f d t => Z f d t ω) out)) ∧
      (∀ f d t, HasLaw (Z f d t) (gaussianReal (bias d) (rms d ^ 2 / dt).toNNReal) P) ∧
      iIndepFun (fun i : {i : Name × Name × ℕ // i.1 ∈ out.map Prod.fst ∧ i.2.1 ∈ s.detNames ∧
        i.2.2 < a.positions.length} => Z i.1.1 i.1.2.1 i.1.2.2) P := by
  refine ⟨fun f d t ω => level next dt rms bias
    (handed next a.positions.length (out.map Prod.fst) s.detNames (g ω)) f d t,
    fun ω => samples_level lib x ops s hs next _ rms bias hd dt hdt names a out h, ?_, ?_⟩
  · intro f d t
    simp only [level, handed, draw_after]
    have := gaussianReal_const_add (gaussianReal_const_mul (hg.law
      (((out.map Prod.fst).idxOf f * s.detNames.length + s.detNames.idxOf d) * a.positions.length + t))
      (rms d / Real.sqrt dt)) (bias d)
    have hv : (rms d ^ 2 / dt).toNNReal = NNReal.mk ((rms d / Real.sqrt dt) ^ 2) (sq_nonneg _) * 1 := by
      rw [mul_one, ← NNReal.coe_inj, Real.coe_toNNReal _ (by positivity), NNReal.coe_mk, div_pow, Real.sq_sqrt hdt.le]
    rw [mul_zero, zero_add] at this
    rw [hv]
    exact this
  · simp only [level, handed, draw_after]
    have inj : Function.Injective (fun i : {i : Name × Name × ℕ // i.1 ∈ out.map Prod.fst ∧ i.2.1 ∈ s.detNames ∧
        i.2.2 < a.positions.length} => ((out.map Prod.fst).idxOf i.1.1 * s.detNames.length +
          s.detNames.idxOf i.1.2.1) * a.positions.length + i.1.2.2) := by
      rintro ⟨⟨f, d, t⟩, h1, h2, h3⟩ ⟨⟨f', d', t'⟩, h1', h2', h3'⟩ e
      obtain ⟨e1, e2, e3⟩ := place_inj _ _ _ _ _ _ _ _ (List.idxOf_lt_length_of_mem h2)
        (List.idxOf_lt_length_of_mem h2') h3 h3' e
      have q1 : f = f' := (List.idxOf_inj h1).1 e1
      have q2 : d = d' := (List.idxOf_inj h2).1 e2
      simp only at e3
      subst q1 q2 e3
      rfl
    exact (hg.indep.precomp inj).comp (fun i (z : ℝ) => bias i.1.2.1 + rms i.1.2.1 / Real.sqrt dt * z)
      (fun i => by fun_prop)

end

/-! ## An example: the detector of the example of C149 with a generator of its own -/

/-- Independent normal numbers. -/
noncomputable def hum : Measure (ℕ → ℝ) := Measure.infinitePi (fun _ => gaussianReal 0 1)

theorem hum_stream : Stream hum tape id where
  law t := by
    simp only [draw_tape]
    exact (measurePreserving_eval_infinitePi (fun _ : ℕ => gaussianReal 0 1) t).hasLaw
  indep := by
    simp only [draw_tape]
    exact iIndepFun_infinitePi (P := fun _ : ℕ => gaussianReal 0 1) (X := fun _ x => x) (fun _ => measurable_id)

/-- Four samples of a quarter of a second, with the numbers of one generator: the third is the sample 3/2 without noise plus a
number around 1/2 with the variance 16, and the first and third are independent. -/
example : ∃ (s : State Unit Unit (Point ℝ) (Grid ℝ ℝ) (Arr ℝ) (Grid ℝ ℝ) ℝ) (Z : ℕ → (ℕ → ℝ) → ℝ)
    (cols : (ℕ → ℝ) → List (Option ℝ)),
    mapFields (grids hissLib) (hissState 3) ["sky"] { kernel := some (.pair 3 3), opts := (.peak, .none) } = (s, .ok ()) ∧
    (∀ g, sampleFields (grids hissLib) s ["sky"]
      { positions := List.replicate 4 ⟨false, 0, 0⟩, dt := some (1 / 4), seed := handed tape 4 ["sky"] ["a"] g } =
        .ok [("sky", [cols g])] ∧ (cols g)[2]? = some (some (Z 2 g + 3 / 2)) ∧
        (cols g)[0]? = some (some (Z 0 g + 3 / 2))) ∧
    HasLaw (Z 2) (gaussianReal (1 / 2) 16) hum ∧ IndepFun (Z 0) (Z 2) hum := by
  obtain ⟨s, c, h1, hrun, hdets, k1, h2, hval⟩ := hiss_sampled 3
  obtain ⟨Z, z1, z2, z3⟩ := C152_shared hissLib hissSetup _ s hrun tape id hum_stream (fun _ => 2) (fun _ => 1 / 2) (by
      intro d hd
      rw [k1] at hd
      simp only [List.mem_cons, List.not_mem_nil, or_false] at hd
      subst hd
      exact ⟨by norm_num, hiss_white 3 s hdets⟩) (1 / 4) (by norm_num) ["sky"] hissArgs _ h2 (by simp)
  rw [k1] at z1 z3
  refine ⟨s, Z "sky" "a", fun g => c.zipIdx.map (fun e => e.1.map (Z "sky" "a" e.2 g + ·)), h1, fun g => ⟨?_, ?_, ?_⟩,
    ?_, ?_⟩
  · have := z1 g
    simp only [hissArgs, List.length_replicate] at this
    exact this
  · rw [List.getElem?_map, List.getElem?_zipIdx, hval 2 (by decide)]
    simp
  · rw [List.getElem?_map, List.getElem?_zipIdx, hval 0 (by decide)]
    simp
  · have := z2 "sky" "a" 2
    have e : ((2 : ℝ) ^ 2 / (1 / 4)).toNNReal = (16 : NNReal) := by
      rw [← NNReal.coe_inj, Real.coe_toNNReal _ (by norm_num)]; norm_num
    rwa [e] at this
  · exact z3.indepFun (i := ⟨("sky", "a", 0), by simp, by simp, by simp [hissArgs]⟩)
      (j := ⟨("sky", "a", 2), by simp, by simp, by simp [hissArgs]⟩) (by simp)

end Verif.Inst
