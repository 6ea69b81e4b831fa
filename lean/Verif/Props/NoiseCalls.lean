import Verif.Props.SharedNoise

/-!
# C154: noise of successive calls from one generator
-/

namespace Verif.Inst

open MeasureTheory ProbabilityTheory
open Verif.Map (Grid Arr BeamNorm PadArg)
open Spec

section
variable {F D G : Type} [DecidableEq F] [DecidableEq D]

/-- Places in the stream are before its end. -/
theorem place_lt (n w m i j t : ℕ) (hi : i < m) (hj : j < w) (ht : t < n) : (i * w + j) * n + t < m * w * n := by
  have h1 : i * w + j + 1 ≤ m * w := by
    calc i * w + j + 1 ≤ i * w + w := by omega
      _ = (i + 1) * w := by ring
      _ ≤ m * w := Nat.mul_le_mul_right _ hi
  calc (i * w + j) * n + t < (i * w + j) * n + n := by omega
    _ = (i * w + j + 1) * n := by ring
    _ ≤ m * w * n := Nat.mul_le_mul_right _ h1

/-- **C154**: the generator of C152 after a call of `sample_fields`, that is, as `white_noise` left it for the last
detector in the last field. -/
theorem C154_left (next : G → ℝ × G) (n : ℕ) (fields dets : List Name) (hf : fields.Nodup) (hn : dets.Nodup) (g : G)
    (dt rms bias : ℝ) (hr : 0 ≤ rms) (f d : Name) (h1 : fields[fields.length - 1]? = some f)
    (h2 : dets[dets.length - 1]? = some d) :
    (whiteNoise next n dt rms bias (handed next n fields dets g f d)).2 =
      after next (fields.length * dets.length * n) g := by
  have at' : ∀ (l : List Name), l.Nodup → ∀ i d, l[i]? = some d → i < l.length ∧ l.idxOf d = i := by
    intro l hl i d h
    obtain ⟨hi, rfl⟩ := List.getElem?_eq_some_iff.1 h
    exact ⟨hi, hl.idxOf_getElem i hi⟩
  obtain ⟨a1, a2⟩ := at' _ hf _ _ h1
  obtain ⟨b1, b2⟩ := at' _ hn _ _ h2
  rw [noise_left _ _ _ _ _ _ hr]
  unfold handed
  rw [after_after, a2, b2]
  obtain ⟨k, hk⟩ : ∃ k, fields.length = k + 1 := ⟨fields.length - 1, by omega⟩
  obtain ⟨m, hm⟩ : ∃ m, dets.length = m + 1 := ⟨dets.length - 1, by omega⟩
  rw [hk, hm, Nat.add_sub_cancel, Nat.add_sub_cancel]
  congr 1
  ring

/-- **C154**: two calls of `sample_fields` one after the other with white noise from one generator.  Fields, detectors,
positions and time steps may change between them.  The noise of each call is distributed as in C152, and all numbers of
both calls are independent. -/
theorem C154_calls {Ω : Type} [MeasurableSpace Ω] {P : Measure Ω} (lib : Lib F D ℝ G ℝ) (x x' : Setup F D ℝ)
    (ops ops' : List (Op F D (Point ℝ) (Grid ℝ ℝ) (Arr ℝ) (Grid ℝ ℝ) ℝ (BeamNorm × PadArg)))
    (s s' : State F D (Point ℝ) (Grid ℝ ℝ) (Arr ℝ) (Grid ℝ ℝ) ℝ) (hs : s = run (grids lib) (fresh x) ops)
    (hs' : s' = run (grids lib) (fresh x') ops')
    (next : G → ℝ × G) (g : Ω → G) (hg : Stream P next g) (rms bias rms' bias' : Name → ℝ)
    (hd : ∀ d ∈ s.detNames, 0 ≤ rms d ∧ White lib s next d (rms d) (bias d))
    (hd' : ∀ d ∈ s'.detNames, 0 ≤ rms' d ∧ White lib s' next d (rms' d) (bias' d)) (dt dt' : ℝ) (hdt : 0 < dt)
    (hdt' : 0 < dt') (names names' : List Name) (a a' : SampleArgs (Point ℝ) ℝ G)
    (out out' : List (Name × List (List (Option ℝ))))
    (h : sampleFields (grids lib) s names { a with signal := true, withNoise := false } = .ok out)
    (h' : sampleFields (grids lib) s' names' { a' with signal := true, withNoise := false } = .ok out')
    (_hnd : (out.map Prod.fst).Nodup) (_hnd' : (out'.map Prod.fst).Nodup) :
    ∃ Z Z' : Name → Name → ℕ → Ω → ℝ,
      (∀ ω, sampleFields (grids lib) s names
        { a with signal := true, withNoise := true, dt := some dt,
                 seed := handed next a.positions.length (out.map Prod.fst) s.detNames (g ω) } =
          .ok (noisy s.detNames (fun f d t => Z f d t ω) out)) ∧
      (∀ ω, sampleFields (grids lib) s' names'
        { a' with signal := true, withNoise := true, dt := some dt',
                  seed := handed next a'.positions.length (out'.map Prod.fst) s'.detNames
                    (after next ((out.map Prod.fst).length * s.detNames.length * a.positions.length) (g ω)) } =
          .ok (noisy s'.detNames (fun f d t => Z' f d t ω) out')) ∧
      (∀ f d t, HasLaw (Z f d t) (gaussianReal (bias d) (rms d ^ 2 / dt).toNNReal) P) ∧
      (∀ f d t, HasLaw (Z' f d t) (gaussianReal (bias' d) (rms' d ^ 2 / dt').toNNReal) P) ∧
      iIndepFun (Sum.elim
        (fun i : {i : Name × Name × ℕ // i.1 ∈ out.map Prod.fst ∧ i.2.1 ∈ s.detNames ∧ i.2.2 < a.positions.length} =>
          Z i.1.1 i.1.2.1 i.1.2.2)
        (fun i : {i : Name × Name × ℕ // i.1 ∈ out'.map Prod.fst ∧ i.2.1 ∈ s'.detNames ∧ i.2.2 < a'.positions.length} =>
          Z' i.1.1 i.1.2.1 i.1.2.2)) P := by
  obtain ⟨e, he⟩ : ∃ e, e = (out.map Prod.fst).length * s.detNames.length * a.positions.length := ⟨_, rfl⟩
  have law : ∀ (rms bias : ℝ) (dt : ℝ), 0 < dt → ∀ k, HasLaw (fun ω => bias + rms / Real.sqrt dt * draw next k (g ω))
      (gaussianReal bias (rms ^ 2 / dt).toNNReal) P := by
    intro rms bias dt hdt k
    have := gaussianReal_const_add (gaussianReal_const_mul (hg.law k) (rms / Real.sqrt dt)) bias
    have hv : (rms ^ 2 / dt).toNNReal = NNReal.mk ((rms / Real.sqrt dt) ^ 2) (sq_nonneg _) * 1 := by
      rw [mul_one, ← NNReal.coe_inj, Real.coe_toNNReal _ (by positivity), NNReal.coe_mk, div_pow, Real.sq_sqrt hdt.le]
    rw [mul_zero, zero_add] at this
    rw [hv]
    exact this
  rw [← he]
  refine ⟨fun f d t ω => level next dt rms bias
    (handed next a.positions.length (out.map Prod.fst) s.detNames (g ω)) f d t,
    fun f d t ω => level next dt' rms' bias'
    (handed next a'.positions.length (out'.map Prod.fst) s'.detNames (after next e (g ω))) f d t,
    fun ω => samples_level lib x ops s hs next _ rms bias hd dt hdt names a out h,
    fun ω => samples_level lib x' ops' s' hs' next _ rms' bias' hd' dt' hdt' names' a' out' h', ?_, ?_, ?_⟩
  · intro f d t
    simp only [level, handed, draw_after]
    exact law _ _ dt hdt _
  · intro f d t
    simp only [level, handed, draw_after]
    exact law _ _ dt' hdt' _
  · simp only [level, handed, draw_after]
    obtain ⟨pl, hpl⟩ : ∃ pl : ({i : Name × Name × ℕ // i.1 ∈ out.map Prod.fst ∧ i.2.1 ∈ s.detNames ∧
        i.2.2 < a.positions.length} ⊕ {i : Name × Name × ℕ // i.1 ∈ out'.map Prod.fst ∧ i.2.1 ∈ s'.detNames ∧
        i.2.2 < a'.positions.length}) → ℕ, pl = Sum.elim
        (fun i => ((out.map Prod.fst).idxOf i.1.1 * s.detNames.length +
          s.detNames.idxOf i.1.2.1) * a.positions.length + i.1.2.2)
        (fun i => e + (((out'.map Prod.fst).idxOf i.1.1 * s'.detNames.length +
          s'.detNames.idxOf i.1.2.1) * a'.positions.length + i.1.2.2)) := ⟨_, rfl⟩
    have one : ∀ (fs ds : List Name) (n : ℕ) (i j : {i : Name × Name × ℕ // i.1 ∈ fs ∧ i.2.1 ∈ ds ∧ i.2.2 < n}),
        (fs.idxOf i.1.1 * ds.length + ds.idxOf i.1.2.1) * n + i.1.2.2 =
          (fs.idxOf j.1.1 * ds.length + ds.idxOf j.1.2.1) * n + j.1.2.2 → i = j := by
      rintro fs ds n ⟨⟨f, d, t⟩, h1, h2, h3⟩ ⟨⟨f', d', t'⟩, h1', h2', h3'⟩ e
      obtain ⟨e1, e2, e3⟩ := place_inj _ _ _ _ _ _ _ _ (List.idxOf_lt_length_of_mem h2)
        (List.idxOf_lt_length_of_mem h2') h3 h3' e
      have q1 : f = f' := (List.idxOf_inj h1).1 e1
      have q2 : d = d' := (List.idxOf_inj h2).1 e2
      simp only at e3
      subst q1 q2 e3
      rfl
    have before : ∀ i : {i : Name × Name × ℕ // i.1 ∈ out.map Prod.fst ∧ i.2.1 ∈ s.detNames ∧
        i.2.2 < a.positions.length}, ((out.map Prod.fst).idxOf i.1.1 * s.detNames.length +
          s.detNames.idxOf i.1.2.1) * a.positions.length + i.1.2.2 < e := by
      rintro ⟨⟨f, d, t⟩, h1, h2, h3⟩
      rw [he]
      exact place_lt _ _ _ _ _ _ (List.idxOf_lt_length_of_mem h1) (List.idxOf_lt_length_of_mem h2) h3
    have inj : Function.Injective pl := by
      rw [hpl]
      rintro (i | i) (j | j) hij
      · exact congrArg Sum.inl (one _ _ _ i j hij)
      · have := before i
        simp only [Sum.elim_inl, Sum.elim_inr] at hij
        omega
      · have := before j
        simp only [Sum.elim_inl, Sum.elim_inr] at hij
        omega
      · exact congrArg Sum.inr (one _ _ _ i j (by simpa using hij))
    have := (hg.indep.precomp inj).comp (fun i (z : ℝ) => Sum.elim (fun i => bias i.1.2.1) (fun i => bias' i.1.2.1) i +
      Sum.elim (fun i => rms i.1.2.1 / Real.sqrt dt) (fun i => rms' i.1.2.1 / Real.sqrt dt') i * z)
      (fun i => by fun_prop)
    convert this using 1
    funext i
    rcases i with i | i <;> simp [hpl, Function.comp_def]

end

/-- The example of C152, with two calls of four samples, the second of half a second each: the second call starts with
number 4 of the generator, and its first sample is independent of the first of the first call. -/
example : ∃ (s : State Unit Unit (Point ℝ) (Grid ℝ ℝ) (Arr ℝ) (Grid ℝ ℝ) ℝ) (Z Z' : (ℕ → ℝ) → ℝ)
    (c c' : (ℕ → ℝ) → List (Option ℝ)),
    mapFields (grids hissLib) (hissState 3) ["sky"] { kernel := some (.pair 3 3), opts := (.peak, .none) } = (s, .ok ()) ∧
    (∀ g, sampleFields (grids hissLib) s ["sky"]
      { positions := List.replicate 4 ⟨false, 0, 0⟩, dt := some (1 / 4), seed := handed tape 4 ["sky"] ["a"] g } =
        .ok [("sky", [c g])] ∧ (c g)[0]? = some (some (Z g + 3 / 2))) ∧
    (∀ g, sampleFields (grids hissLib) s ["sky"]
      { positions := List.replicate 4 ⟨false, 0, 0⟩, dt := some (1 / 2),
        seed := handed tape 4 ["sky"] ["a"] (after tape 4 g) } =
        .ok [("sky", [c' g])] ∧ (c' g)[0]? = some (some (Z' g + 3 / 2))) ∧
    HasLaw Z' (gaussianReal (1 / 2) 8) hum ∧ IndepFun Z Z' hum := by
  obtain ⟨s, c, h1, hrun, hdets, k1, h2, hval⟩ := hiss_sampled 3
  have hw : ∀ d ∈ s.detNames, (0 : ℝ) ≤ 2 ∧ White hissLib s tape d 2 (1 / 2) := by
    intro d hd
    rw [k1] at hd
    simp only [List.mem_cons, List.not_mem_nil, or_false] at hd
    subst hd
    exact ⟨by norm_num, hiss_white 3 s hdets⟩
  obtain ⟨Z, Z', z1, z1', -, z2, z3⟩ := C154_calls hissLib hissSetup hissSetup _ _ s s hrun hrun tape id hum_stream
    (fun _ => 2) (fun _ => 1 / 2) (fun _ => 2) (fun _ => 1 / 2) hw hw (1 / 4) (1 / 2) (by norm_num) (by norm_num)
    ["sky"] ["sky"] hissArgs hissArgs _ _ h2 h2 (by simp) (by simp)
  rw [k1] at z1 z1' z3
  refine ⟨s, Z "sky" "a" 0, Z' "sky" "a" 0, fun g => c.zipIdx.map (fun e => e.1.map (Z "sky" "a" e.2 g + ·)),
    fun g => c.zipIdx.map (fun e => e.1.map (Z' "sky" "a" e.2 g + ·)), h1, fun g => ⟨?_, ?_⟩, fun g => ⟨?_, ?_⟩, ?_, ?_⟩
  · have := z1 g
    simp only [hissArgs, List.length_replicate] at this
    exact this
  · rw [List.getElem?_map, List.getElem?_zipIdx, hval 0 (by decide)]
    simp
  · have := z1' g
    simp only [hissArgs, List.length_replicate] at this
    exact this
  · rw [List.getElem?_map, List.getElem?_zipIdx, hval 0 (by decide)]
    simp
  · have := z2 "sky" "a" 0
    have e : ((2 : ℝ) ^ 2 / (1 / 2)).toNNReal = (8 : NNReal) := by
      rw [← NNReal.coe_inj, Real.coe_toNNReal _ (by norm_num)]; norm_num
    rwa [e] at this
  · exact z3.indepFun (i := .inl ⟨("sky", "a", 0), by simp, by simp, by simp [hissArgs]⟩)
      (j := .inr ⟨("sky", "a", 0), by simp, by simp, by simp [hissArgs]⟩) (by simp)

end Verif.Inst
