import Mathlib.Probability.Moments.Variance
import Mathlib.Probability.Independence.InfinitePi
import Verif.Spec.WhiteNoise
import Verif.Props.Observe

/-!
# C149: samples with white noise
-/

set_option linter.unusedSectionVars false

namespace Verif.Inst

open Verif.Map (Grid Arr BeamNorm PadArg)
open MeasureTheory ProbabilityTheory
open Spec

section
variable {F D O X G B H M P V T S Q K : Type}

theorem mapE_each {ε α β : Type} (f : α → Except ε β) (g : α → β) (xs : List α) (h : ∀ x ∈ xs, f x = .ok (g x)) :
    mapE f xs = .ok (xs.map g) := by
  induction xs with
  | nil => rfl
  | cons x xs ih =>
    simp only [mapE, h x (List.mem_cons_self ..), ih (fun y hy => h y (List.mem_cons_of_mem _ hy)), List.map_cons]

theorem addGroup_swap (ph : Phys F D O X G B H M P V T S Q K) (L : List (ℕ × List V)) (acc acc2 out : List (List V))
    (hl : acc2.map List.length = acc.map List.length) (h : addGroup ph acc L = .ok out) :
    ∃ out2, addGroup ph acc2 L = .ok out2 ∧ out2.map List.length = out.map List.length := by
  induction L generalizing acc acc2 with
  | nil =>
    simp only [addGroup, Except.ok.injEq] at h
    exact ⟨acc2, rfl, by rw [hl, h]⟩
  | cons p rest ih =>
    obtain ⟨i, ys⟩ := p
    simp only [addGroup] at h ⊢
    have hi : (acc2[i]?).map List.length = (acc[i]?).map List.length := by
      rw [← List.getElem?_map, ← List.getElem?_map, hl]
    rcases h1 : acc[i]? with - | xs
    · rw [h1] at h; cases h
    rw [h1] at h hi
    obtain ⟨xs2, h2, h3⟩ := Option.map_eq_some_iff.1 hi
    rw [h2]
    simp only [addArrays, h3] at h ⊢
    split at h
    · cases h
    · rename_i zs hz
      split at hz
      · rename_i hlen
        rw [if_pos hlen]
        simp only [Except.ok.injEq] at hz
        simp only
        refine ih _ _ ?_ h
        rw [List.map_set, List.map_set, hl, ← hz]
        simp [List.length_zipWith, h3]
      · cases hz

theorem signalLoop_swap (ph : Phys F D O X G B H M P V T S Q K) (s : State F D O X G M K) (md : MapData X M)
    (a b : SampleArgs P T S) (hp : b.positions = a.positions) (groups : List (List Name)) (acc acc2 out : List (List V))
    (hl : acc2.map List.length = acc.map List.length) (h : signalLoop ph s md a acc groups = .ok out) :
    ∃ out2, signalLoop ph s md b acc2 groups = .ok out2 ∧ out2.map List.length = out.map List.length := by
  induction groups generalizing acc acc2 with
  | nil =>
    simp only [signalLoop, Except.ok.injEq] at h
    exact ⟨acc2, rfl, by rw [hl, h]⟩
  | cons gr rest ih =>
    cases gr with
    | nil => simp [signalLoop] at h
    | cons d ds =>
      simp only [signalLoop] at h ⊢
      rcases hd : s.detectors.get? d with - | det
      · rw [hd] at h; cases h
      rw [hd] at h
      simp only [hp] at h ⊢
      split at h
      · cases h
      · rename_i cols hc
        split at h
        · cases h
        · rename_i acc' ha
          obtain ⟨acc2', k1, k2⟩ := addGroup_swap ph _ _ _ _ hl ha
          obtain ⟨out2, m1, m2⟩ := ih _ _ k2 h
          refine ⟨out2, ?_, m2⟩
          rw [k1]
          exact m1

/-- Sampling a field succeeds with any noise of the right length if it does without. -/
theorem sampleField_swap (ph : Phys F D O X G B H M P V T S Q K) (s : State F D O X G M K)
    (a b : SampleArgs P T S) (hp : b.positions = a.positions) (hsa : a.signal = true) (hsb : b.signal = true)
    (hw : a.withNoise = false) (groups : List (List Name)) (f : Name)
    (nz : Name → List V) (hn : ∀ d ∈ s.detNames, noiseOf ph s b f d = .ok (nz d) ∧ (nz d).length = a.positions.length)
    (out : List (List V)) (h : sampleField ph s groups a f = .ok out) :
    ∃ out2, sampleField ph s groups b f = .ok out2 := by
  unfold sampleField at h ⊢
  rcases hm : s.maps.get? f with - | md
  · rw [hm] at h; cases h
  rw [hm] at h
  simp only [hsa, hsb, if_true] at h ⊢
  rcases h1 : mapE (noiseOf ph s a f) s.detNames with e | start
  · rw [h1] at h; cases h
  rw [h1] at h
  simp only at h
  rw [mapE_each (noiseOf ph s b f) nz s.detNames (fun d hd => (hn d hd).1)]
  simp only
  have hst : start = s.detNames.map (fun _ => a.positions.map fun _ => ph.zero) := by
    have := mapE_each (noiseOf ph s a f) (fun _ => a.positions.map fun _ => ph.zero) s.detNames
      (fun d _ => by unfold noiseOf; rw [hw]; rfl)
    rw [this] at h1
    exact (Except.ok.inj h1).symm
  rcases h2 : signalLoop ph s md a start groups with e | r
  · rw [h2] at h; cases h
  rw [h2] at h
  obtain ⟨r2, k1, k2⟩ := signalLoop_swap ph s md a b hp groups start (s.detNames.map nz) r (by
    rw [hst, List.map_map, List.map_map]
    refine List.map_congr_left (fun d hd => ?_)
    simp [(hn d hd).2]) h2
  rw [k1]
  cases r with
  | nil => cases h
  | cons c cs =>
    simp only at h
    split at h
    · rename_i hall
      cases r2 with
      | nil => simp at k2
      | cons c2 cs2 =>
        simp only [List.map_cons, List.cons.injEq] at k2
        simp only
        rw [if_pos]
        · exact ⟨_, rfl⟩
        · rw [List.all_eq_true] at hall ⊢
          intro x hx
          have : x.length ∈ cs.map List.length := by rw [← k2.2]; exact List.mem_map_of_mem hx
          obtain ⟨y, hy, he⟩ := List.mem_map.1 this
          have := hall y hy
          simp only [decide_eq_true_eq] at this ⊢
          rw [← he, this, k2.1]
    · cases h

theorem mapE_swap {ε α β : Type} (g0 g : α → Except ε β) (φ : β → β) (xs : List α) (ys : List β)
    (h : ∀ x ∈ xs, ∀ y, g0 x = .ok y → g x = .ok (φ y)) (h0 : mapE g0 xs = .ok ys) : mapE g xs = .ok (ys.map φ) := by
  induction xs generalizing ys with
  | nil =>
    simp only [mapE, Except.ok.injEq] at h0
    subst h0; rfl
  | cons x xs ih =>
    simp only [mapE] at h0 ⊢
    rcases h1 : g0 x with e | y
    · rw [h1] at h0; cases h0
    rw [h1] at h0
    rcases h2 : mapE g0 xs with e | zs
    · rw [h2] at h0; cases h0
    rw [h2] at h0
    simp only [Except.ok.injEq] at h0
    subst h0
    rw [h x (by simp) y h1, ih zs (fun x hx => h x (List.mem_cons_of_mem _ hx)) h2]
    rfl

end

theorem draws_get {G : Type} (next : G → ℝ × G) (n : ℕ) (g : G) :
    (draws next n g).1 = (List.range n).map (fun t => draw next t g) := by
  induction n generalizing g with
  | zero => rfl
  | succ n ih =>
    rw [List.range_succ_eq_map, List.map_cons, List.map_map, draws]
    simp only [ih]
    rfl

/-- The noise of a detector. -/
noncomputable def level {G : Type} (next : G → ℝ × G) (dt : ℝ) (rms bias : Name → ℝ) (seed : Name → Name → G)
    (f d : Name) (t : ℕ) : ℝ := bias d + rms d / Real.sqrt dt * draw next t (seed f d)

section
variable {F D G : Type} [DecidableEq F] [DecidableEq D]

theorem white_noise (lib : Lib F D ℝ G ℝ) (s : State F D (Point ℝ) (Grid ℝ ℝ) (Arr ℝ) (Grid ℝ ℝ) ℝ)
    (next : G → ℝ × G) (d : Name) (rms bias : Name → ℝ) (hd : White lib s next d (rms d) (bias d)) (hr : 0 ≤ rms d)
    (dt : ℝ) (hdt : 0 < dt) (b : SampleArgs (Point ℝ) ℝ G) (hb : b.withNoise = true) (hbd : b.dt = some dt) (f : Name) :
    noiseOf (grids lib) s b f d =
      .ok ((List.range b.positions.length).map (fun t => some (level next dt rms bias b.seed f d t))) := by
  obtain ⟨det, r, h1, h2, h3⟩ := hd
  have := h3 b.positions.length dt (b.seed f d)
    ((List.range b.positions.length).map (fun t => level next dt rms bias b.seed f d t)) (by
      unfold whiteNoise
      rw [if_neg (by rintro ⟨_, h⟩; linarith), if_pos hdt, draws_get, List.map_map, List.map_map]
      rfl)
  unfold noiseOf
  rw [if_pos hb, h1, hbd]
  simp only [Option.bind_some, h2, grids, this, List.map_map]
  rfl

theorem signal_unique (ph : Phys F D O X G' B H M P V T S Q K) (s : State F D O X G' M K) (x : X) (c : M)
    (ps : List P) (d : Name) (o1 o2 : List V) (h1 : Signal ph s x c ps d o1) (h2 : Signal ph s x c ps d o2) : o1 = o2 := by
  obtain ⟨d1, a1, b1⟩ := h1
  obtain ⟨d2, a2, b2⟩ := h2
  rw [a1] at a2
  cases a2
  rw [b1] at b2
  exact Except.ok.inj b2

/-- One field. -/
theorem field_noisy (lib : Lib F D ℝ G ℝ) (s : State F D (Point ℝ) (Grid ℝ ℝ) (Arr ℝ) (Grid ℝ ℝ) ℝ)
    (hn : s.detNames.Nodup) (next : G → ℝ × G) (rms bias : Name → ℝ)
    (hd : ∀ d ∈ s.detNames, 0 ≤ rms d ∧ White lib s next d (rms d) (bias d)) (dt : ℝ) (hdt : 0 < dt)
    (a b : SampleArgs (Point ℝ) ℝ G) (hp : b.positions = a.positions) (hsa : a.signal = true) (hsb : b.signal = true)
    (hw : a.withNoise = false) (hb : b.withNoise = true) (hbd : b.dt = some dt) (groups : List (List Name))
    (hgr : cloneGroups (samePointing s) s.detNames = .ok groups) (f : Name) (out : List (List (Option ℝ)))
    (h : sampleField (grids lib) s groups a f = .ok out) :
    sampleField (grids lib) s groups b f = .ok ((s.detNames.zip out).map (fun c => c.2.zipIdx.map (fun e =>
      e.1.map (level next dt rms bias b.seed f c.1 e.2 + ·)))) := by
  have hnz := fun d (h : d ∈ s.detNames) => white_noise lib s next d rms bias (hd d h).2 (hd d h).1 dt hdt b hb hbd f
  obtain ⟨out2, h2⟩ := sampleField_swap (grids lib) s a b hp hsa hsb hw groups f
    (fun d => (List.range b.positions.length).map (fun t => some (level next dt rms bias b.seed f d t)))
    (fun d h => ⟨hnz d h, by rw [List.length_map, List.length_range, hp]⟩) out h
  rw [h2]
  congr 1
  rcases hm : s.maps.get? f with - | md
  · unfold sampleField at h; rw [hm] at h; cases h
  obtain ⟨-, l1, v1⟩ := sampleField_spec (grids lib) s hn a f groups hgr md hm out h
  obtain ⟨-, l2, v2⟩ := sampleField_spec (grids lib) s hn b f groups hgr md hm out2 h2
  refine List.ext_getElem? (fun k => ?_)
  rw [List.getElem?_map]
  by_cases hk : k < s.detNames.length
  swap
  · rw [List.getElem?_eq_none (by omega), List.getElem?_eq_none (by simp; omega)]
    rfl
  have e1 : s.detNames[k]? = some s.detNames[k] := List.getElem?_eq_getElem hk
  have e2 : out[k]? = some (out[k]'(by omega)) := List.getElem?_eq_getElem (by omega)
  have e3 : out2[k]? = some (out2[k]'(by omega)) := List.getElem?_eq_getElem (by omega)
  obtain ⟨nz1, n1, n2⟩ := v1 k _ _ e1 e2
  obtain ⟨nz2, m1, m2⟩ := v2 k _ _ e1 e3
  rw [if_pos hsa] at n2
  rw [if_pos hsb] at m2
  obtain ⟨c, sg, c1, c2, c3, c4⟩ := n2
  obtain ⟨c', sg', c1', c2', c3', c4'⟩ := m2
  rw [c1] at c1'
  cases c1'
  rw [hp] at c2'
  obtain rfl := signal_unique _ _ _ _ _ _ _ _ c2 c2'
  have e4 : (s.detNames.zip out)[k]? = some (s.detNames[k], out[k]'(by omega)) := by
    rw [List.getElem?_zip_eq_some]; exact ⟨e1, e2⟩
  rw [e4, e3, c4', Option.map_some]
  simp only [c4]
  congr 1
  unfold noiseOf at n1
  rw [hw] at n1
  simp only [Bool.false_eq_true, if_false, Except.ok.injEq] at n1
  rw [hnz _ (List.getElem_mem hk)] at m1
  simp only [Except.ok.injEq] at m1
  subst n1
  subst m1
  simp only [List.length_map, List.length_range] at c3 c3'
  refine List.ext_getElem? (fun t => ?_)
  rw [List.getElem?_map, List.getElem?_zipIdx, List.getElem?_zipWith, List.getElem?_zipWith, List.getElem?_map,
    List.getElem?_map]
  by_cases ht : t < a.positions.length
  · rw [List.getElem?_range (by omega), List.getElem?_eq_getElem ht, List.getElem?_eq_getElem (l := sg) (by omega)]
    simp only [Option.map_some, zero_add, Option.some.injEq]
    rcases sg[t]'(by omega) with - | x
    · rfl
    · simp [grids, addNaN]
  · rw [List.getElem?_eq_none (l := a.positions) (by omega), List.getElem?_eq_none (l := List.range _) (by simp; omega)]
    rfl

/-- Sampling with white noise adds the noise to each sample. -/
theorem samples_level (lib : Lib F D ℝ G ℝ) (x : Setup F D ℝ)
    (ops : List (Op F D (Point ℝ) (Grid ℝ ℝ) (Arr ℝ) (Grid ℝ ℝ) ℝ (BeamNorm × PadArg)))
    (s : State F D (Point ℝ) (Grid ℝ ℝ) (Arr ℝ) (Grid ℝ ℝ) ℝ) (hs : s = run (grids lib) (fresh x) ops)
    (next : G → ℝ × G) (seed : Name → Name → G) (rms bias : Name → ℝ)
    (hd : ∀ d ∈ s.detNames, 0 ≤ rms d ∧ White lib s next d (rms d) (bias d)) (dt : ℝ) (hdt : 0 < dt)
    (names : List Name) (a : SampleArgs (Point ℝ) ℝ G) (out : List (Name × List (List (Option ℝ))))
    (h : sampleFields (grids lib) s names { a with signal := true, withNoise := false } = .ok out) :
    sampleFields (grids lib) s names { a with signal := true, withNoise := true, dt := some dt, seed := seed } =
      .ok (noisy s.detNames (level next dt rms bias seed) out) := by
  have ho : Ordered s := hs ▸ run_ordered (grids lib) ops _ (fresh_ordered x)
  unfold sampleFields at h ⊢
  rcases h1 : chosenFields s names with e | fs
  · rw [h1] at h; cases h
  rw [h1] at h
  simp only at h ⊢
  rcases h2 : mapE (checkConsistent s) fs with e | us
  · rw [h2] at h; cases h
  rw [h2] at h
  simp only [Bool.and_false, Bool.and_true, Bool.false_eq_true, if_false, Option.isNone_some,
    Bool.not_true, Bool.not_false, Bool.false_and] at h ⊢
  split at h
  · cases h
  rename_i hshape
  rw [if_neg hshape]
  rcases h3 : cloneGroups (samePointing s) s.detNames with e | groups
  · rw [h3] at h; cases h
  rw [h3] at h
  simp only at h ⊢
  unfold noisy
  refine mapE_swap _ _ _ _ _ ?_ h
  intro f _ y hy
  rcases h4 : sampleField (grids lib) s groups { a with signal := true, withNoise := false } f with e | c
  · rw [h4] at hy; cases hy
  rw [h4] at hy
  simp only [Except.ok.injEq] at hy
  subst hy
  rw [field_noisy lib s ho.detNodup next rms bias hd dt hdt { a with signal := true, withNoise := false }
    { a with signal := true, withNoise := true, dt := some dt, seed := seed } rfl rfl rfl rfl rfl rfl groups h3 f c h4]

theorem level_law {Ω : Type} [MeasurableSpace Ω] {P : Measure Ω} (next : G → ℝ × G) (seed : Ω → Name → Name → G)
    (hseed : Fresh P next seed) (rms bias : Name → ℝ) (dt : ℝ) (hdt : 0 < dt) (f d : Name) (t : ℕ) :
    HasLaw (fun ω => level next dt rms bias (seed ω) f d t) (gaussianReal (bias d) (rms d ^ 2 / dt).toNNReal) P := by
  have := gaussianReal_const_add (gaussianReal_const_mul (hseed.law f d t) (rms d / Real.sqrt dt)) (bias d)
  have hv : (rms d ^ 2 / dt).toNNReal = NNReal.mk ((rms d / Real.sqrt dt) ^ 2) (sq_nonneg _) * 1 := by
    rw [mul_one, ← NNReal.coe_inj, Real.coe_toNNReal _ (by positivity), NNReal.coe_mk, div_pow, Real.sq_sqrt hdt.le]
  rw [mul_zero, zero_add] at this
  rw [hv]
  exact this

theorem level_indep {Ω : Type} [MeasurableSpace Ω] {P : Measure Ω} (next : G → ℝ × G) (seed : Ω → Name → Name → G)
    (hseed : Fresh P next seed) (rms bias : Name → ℝ) (dt : ℝ) :
    iIndepFun (fun (i : Name × Name × ℕ) ω => level next dt rms bias (seed ω) i.1 i.2.1 i.2.2) P := by
  have := hseed.indep.comp (fun i (z : ℝ) => bias i.2.1 + rms i.2.1 / Real.sqrt dt * z) (fun i => by fun_prop)
  exact this

/-- **C149**: sampling with white noise succeeds whenever sampling without noise does, and adds to each sample its own
number, drawn from a normal distribution around the bias of the detector with the variance `rms² / dt`; the numbers of
different fields, detectors and positions are independent. -/
theorem C149_samples {Ω : Type} [MeasurableSpace Ω] {P : Measure Ω} (lib : Lib F D ℝ G ℝ) (x : Setup F D ℝ)
    (ops : List (Op F D (Point ℝ) (Grid ℝ ℝ) (Arr ℝ) (Grid ℝ ℝ) ℝ (BeamNorm × PadArg)))
    (s : State F D (Point ℝ) (Grid ℝ ℝ) (Arr ℝ) (Grid ℝ ℝ) ℝ) (hs : s = run (grids lib) (fresh x) ops)
    (next : G → ℝ × G) (seed : Ω → Name → Name → G) (hseed : Fresh P next seed) (rms bias : Name → ℝ)
    (hd : ∀ d ∈ s.detNames, 0 ≤ rms d ∧ White lib s next d (rms d) (bias d)) (dt : ℝ) (hdt : 0 < dt)
    (names : List Name) (a : SampleArgs (Point ℝ) ℝ G) (out : List (Name × List (List (Option ℝ))))
    (h : sampleFields (grids lib) s names { a with signal := true, withNoise := false } = .ok out) :
    ∃ Z : Name → Name → ℕ → Ω → ℝ,
      (∀ ω, sampleFields (grids lib) s names
        { a with signal := true, withNoise := true, dt := some dt, seed := seed ω } =
          .ok (noisy s.detNames (fun f d t => Z f d t ω) out)) ∧
      (∀ f d t, HasLaw (Z f d t) (gaussianReal (bias d) (rms d ^ 2 / dt).toNNReal) P) ∧
      iIndepFun (fun i : Name × Name × ℕ => Z i.1 i.2.1 i.2.2) P := by
  exact ⟨fun f d t ω => level next dt rms bias (seed ω) f d t,
    fun ω => samples_level lib x ops s hs next (seed ω) rms bias hd dt hdt names a out h,
    level_law next seed hseed rms bias dt hdt, level_indep next seed hseed rms bias dt⟩

/-- **C149**: the average of samples of a detector at `n` positions is, on average over the noise, the average of the
samples without noise plus the bias; its variance is that of one sample that takes `n` times as long. -/
theorem C149_average {Ω : Type} [MeasurableSpace Ω] {P : Measure Ω} (lib : Lib F D ℝ G ℝ) (x : Setup F D ℝ)
    (ops : List (Op F D (Point ℝ) (Grid ℝ ℝ) (Arr ℝ) (Grid ℝ ℝ) ℝ (BeamNorm × PadArg)))
    (s : State F D (Point ℝ) (Grid ℝ ℝ) (Arr ℝ) (Grid ℝ ℝ) ℝ) (hs : s = run (grids lib) (fresh x) ops)
    (next : G → ℝ × G) (seed : Ω → Name → Name → G) (hseed : Fresh P next seed) (rms bias : Name → ℝ)
    (hd : ∀ d ∈ s.detNames, 0 ≤ rms d ∧ White lib s next d (rms d) (bias d)) (dt : ℝ) (hdt : 0 < dt)
    (names : List Name) (a : SampleArgs (Point ℝ) ℝ G) (out : List (Name × List (List (Option ℝ))))
    (h : sampleFields (grids lib) s names { a with signal := true, withNoise := false } = .ok out)
    (j : ℕ) (f : Name) (cols : List (List (Option ℝ))) (hj : out[j]? = some (f, cols)) (i : ℕ) (d : Name)
    (hi : s.detNames[i]? = some d) (T : Finset ℕ) (hT : T.Nonempty)
    (hnum : ∀ t ∈ T, ∃ (c : List (Option ℝ)) (v : ℝ), cols[i]? = some c ∧ c[t]? = some (some v)) :
    ∃ cols' : Ω → List (List (Option ℝ)),
      (∀ ω, ∃ out', sampleFields (grids lib) s names
        { a with signal := true, withNoise := true, dt := some dt, seed := seed ω } = .ok out' ∧
          out'[j]? = some (f, cols' ω)) ∧
      ∫ ω, averageOf (cols' ω) i T ∂P = averageOf cols i T + bias d ∧
      Var[fun ω => averageOf (cols' ω) i T; P] = rms d ^ 2 / (T.card * dt) := by
  obtain ⟨Z, z1, z2, z3⟩ := C149_samples lib x ops s hs next seed hseed rms bias hd dt hdt names a out h
  have hP : IsProbabilityMeasure P := (z2 "" "" 0).isProbabilityMeasure
  refine ⟨fun ω => (s.detNames.zip cols).map (fun c => c.2.zipIdx.map (fun e => e.1.map (Z f c.1 e.2 ω + ·))),
    fun ω => ⟨_, z1 ω, by unfold noisy; rw [List.getElem?_map, hj]; rfl⟩, ?_⟩
  have hcard : (T.card : ℝ) ≠ 0 := by exact_mod_cast hT.card_pos.ne'
  have key : ∀ ω, averageOf ((s.detNames.zip cols).map (fun c => c.2.zipIdx.map (fun e => e.1.map (Z f c.1 e.2 ω + ·)))) i T
      = averageOf cols i T + (T.card : ℝ)⁻¹ * (∑ t ∈ T, Z f d t) ω := by
    intro ω
    unfold averageOf
    rw [Finset.sum_apply, div_eq_inv_mul, div_eq_inv_mul, ← mul_add, ← Finset.sum_add_distrib]
    congr 1
    refine Finset.sum_congr rfl (fun t ht => ?_)
    obtain ⟨c, v, c1, c2⟩ := hnum t ht
    have e4 : (s.detNames.zip cols)[i]? = some (d, c) := by
      rw [List.getElem?_zip_eq_some]; exact ⟨hi, c1⟩
    simp only [List.getD_eq_getElem?_getD, List.getElem?_map, e4, c1, c2, Option.map_some, Option.getD_some,
      List.getElem?_zipIdx, zero_add]
    ring
  simp only [key]
  have h2 : ∀ t ∈ T, MemLp (Z f d t) 2 P := by
    intro t _
    have := (z2 f d t)
    have hm : MemLp id 2 (P.map (Z f d t)) := by
      rw [this.map_eq]; exact memLp_id_gaussianReal 2
    exact (memLp_map_measure_iff (by fun_prop) this.aemeasurable).1 hm
  have hint : ∀ t ∈ T, Integrable (Z f d t) P := fun t ht => (h2 t ht).integrable (by norm_num)
  constructor
  · rw [integral_add (integrable_const _) ((integrable_finsetSum' _ hint).const_mul _), integral_const,
      integral_const_mul]
    simp only [Finset.sum_apply]
    rw [integral_finsetSum _ hint, Finset.sum_congr rfl (fun t _ => by
      rw [(z2 f d t).integral_eq, integral_id_gaussianReal]), Finset.sum_const]
    simp
    field_simp
  · rw [variance_const_add ((integrable_finsetSum' _ hint).const_mul _).aestronglyMeasurable, variance_const_mul,
      IndepFun.variance_sum h2 (fun t _ t' _ htt => z3.indepFun (i := (f, d, t)) (j := (f, d, t')) (by simp [htt])),
      Finset.sum_congr rfl (fun t _ => by rw [(z2 f d t).variance_eq, variance_id_gaussianReal]), Finset.sum_const,
      Real.coe_toNNReal _ (by positivity)]
    simp
    field_simp

end

/-! ## An example: one detector with white noise -/

/-- Generators that hold all their numbers. -/
def tape (g : ℕ → ℝ) : ℝ × (ℕ → ℝ) := (g 0, fun n => g (n + 1))

theorem draw_tape (t : ℕ) (g : ℕ → ℝ) : draw tape t g = g t := by
  induction t generalizing g with
  | zero => rfl
  | succ t ih => exact ih _

/-- Independent normal numbers for all fields, detectors and times. -/
noncomputable def hiss : Measure (Name × Name × ℕ → ℝ) := Measure.infinitePi (fun _ => gaussianReal 0 1)

theorem hiss_fresh : Fresh hiss tape (fun ω f d t => ω (f, d, t)) where
  law f d t := by
    simp only [draw_tape]
    exact (measurePreserving_eval_infinitePi (fun _ : Name × Name × ℕ => gaussianReal 0 1) (f, d, t)).hasLaw
  indep := by
    simp only [draw_tape]
    exact iIndepFun_infinitePi (P := fun _ : Name × Name × ℕ => gaussianReal 0 1) (X := fun _ x => x)
      (fun _ => measurable_id)

/-- Flat responses and white noise with an rms of 2 in one second around 1/2. -/
noncomputable def hissLib : Lib Unit Unit ℝ (ℕ → ℝ) ℝ where
  emptyKw := ()
  spatial _ _ xs ys fs := .ok ⟨[xs.length, ys.length, fs.length], fun _ => 1⟩
  spectral _ _ fs := .ok ⟨[fs.length], fun _ => 1⟩
  noise _ _ n dt g :=
    match (whiteNoise tape n dt 2 (1 / 2) g).1 with
    | .ok l => .ok (l.map (·.getD 0))
    | .error e => .error e

noncomputable def hissField (v : ℝ) : Grid ℝ ℝ := Map.plainGrid [5, 5, 2] 1 (fun i => if i = [2, 2, 1, 0] then v else 0)

theorem hissField_sky (v : ℝ) : Map.Spec.Sky (hissField v) ⟨[5, 5, 2, 1], fun i => if i = [2, 2, 1, 0] then v else 0⟩
    5 5 2 1 1 1 0 0 0 where
  regular := Map.plainGrid_regular _ _ _ (by simp)
  floats := ⟨rfl, rfl, rfl⟩
  labelled := by constructor <;> simp [hissField, Map.plainGrid, Grid.dim]
  dim := rfl
  nProps := rfl
  units := rfl
  real := by simp [hissField, Map.plainGrid]
  map := rfl
  active := rfl
  x := by constructor <;> simp [hissField, Map.plainGrid]
  y := by constructor <;> simp [hissField, Map.plainGrid]
  z := by constructor <;> simp [hissField, Map.plainGrid]

noncomputable def hissSetup : Setup Unit Unit ℝ := ⟨{}, {}, {}, none, none, none, none, none⟩

noncomputable def hissOps (v : ℝ) : List (Op Unit Unit (Point ℝ) (Grid ℝ ℝ) (Arr ℝ) (Grid ℝ ℝ) ℝ (BeamNorm × PadArg)) :=
  [.addDetector { name := some "a", spatial := .fn (), spectral := .fn (), noise := .fn () },
   .addField { grid := asField (hissField v) ⟨[5, 5, 2, 1], fun i => if i = [2, 2, 1, 0] then v else 0⟩,
               name := some "sky" }]

noncomputable def hissState (v : ℝ) : State Unit Unit (Point ℝ) (Grid ℝ ℝ) (Arr ℝ) (Grid ℝ ℝ) ℝ :=
  run (grids hissLib) (fresh hissSetup) (hissOps v)

theorem hissState_facts (v : ℝ) : (hissState v).detNames = ["a"] ∧
    (hissState v).detectors = [("a", ⟨some ⟨(), ()⟩, some ⟨(), ()⟩, some ⟨(), ()⟩, ⟨true, 0, 0⟩⟩)] ∧
    (hissState v).fields = [("sky", asField (hissField v) ⟨[5, 5, 2, 1], fun i => if i = [2, 2, 1, 0] then v else 0⟩)] :=
  ⟨by rfl, by rfl, by rfl⟩

theorem hiss_white (v : ℝ) (s : State Unit Unit (Point ℝ) (Grid ℝ ℝ) (Arr ℝ) (Grid ℝ ℝ) ℝ)
    (h : s.detectors = (hissState v).detectors) : White hissLib s tape "a" 2 (1 / 2) := by
  refine ⟨_, _, by rw [h, (hissState_facts v).2.1]; rfl, rfl, ?_⟩
  intro n dt g l hl
  simp only [hissLib, hl, List.map_map]
  congr 1
  simp [Function.comp_def]

theorem hiss_observing (v : ℝ) (ps : List (Point ℝ)) (sa : SampleArgs (Point ℝ) ℝ (ℕ → ℝ)) (h1 : sa.positions = ps)
    (h2 : sa.withNoise = false) (h3 : sa.signal = true) (h4 : sa.shapeOk = true) :
    Observing hissLib (hissState v) "sky" (hissField v)
      ⟨[5, 5, 2, 1], fun i => if i = [2, 2, 1, 0] then v else 0⟩ 5 5 2 3 3 1 1 1 0 0 0 .peak .none
      (fun _ _ _ _ => 1) (fun _ _ => 1) (fun _ => List.replicate ps.length 0) sa := by
  obtain ⟨k1, k2, k3⟩ := hissState_facts v
  refine ⟨hissField_sky v, ?_, ?_, ?_, by decide, by decide, by decide, ?_, .inl rfl, ?_, h4, h3, ?_, ?_⟩
  · rw [k3]; rfl
  · rw [k1]; simp
  · intro d hd det hdet
    rw [k2] at hdet
    rw [k1] at hd
    simp only [List.mem_cons, List.not_mem_nil, or_false] at hd
    subst hd
    simp [PyDict.get?] at hdet
    subst hdet
    exact ⟨⟨_, rfl, fun _ _ _ => ⟨_, rfl, rfl, fun _ _ _ _ _ _ _ _ _ => rfl⟩⟩,
      ⟨_, rfl, fun _ => ⟨_, rfl, rfl, fun _ _ _ => rfl⟩⟩⟩
  · intro d _ k _ N hN
    have := hN.1
    simp only [Map.Spec.beamValues, List.mem_flatMap, List.mem_map] at this
    obtain ⟨_, _, _, _, h⟩ := this
    rw [← h]; exact one_ne_zero
  · intro d _; simp
  · intro h; rw [h2] at h; cases h
  · intro d _
    refine ⟨?_, by simp [h1]⟩
    unfold Noise
    rw [if_neg (by rw [h2]; simp), h1]
    simp only [List.map_replicate]
    rfl

noncomputable def hissArgs : SampleArgs (Point ℝ) ℝ (ℕ → ℝ) :=
  { positions := List.replicate 4 ⟨false, 0, 0⟩, signal := true, withNoise := false, seed := fun _ _ _ => 0 }

/-- Without noise the detector sees half of the value, in four samples. -/
theorem hiss_sampled (v : ℝ) : ∃ (s : State Unit Unit (Point ℝ) (Grid ℝ ℝ) (Arr ℝ) (Grid ℝ ℝ) ℝ) (c : List (Option ℝ)),
    mapFields (grids hissLib) (hissState v) ["sky"] { kernel := some (.pair 3 3), opts := (.peak, .none) } = (s, .ok ()) ∧
    s = run (grids hissLib) (fresh hissSetup)
      (hissOps v ++ [.mapFields ["sky"] { kernel := some (.pair 3 3), opts := (.peak, .none) }]) ∧
    s.detectors = (hissState v).detectors ∧ s.detNames = ["a"] ∧
    sampleFields (grids hissLib) s ["sky"] hissArgs = .ok [("sky", [c])] ∧ ∀ t < 4, c[t]? = some (some (v / 2)) := by
  obtain ⟨sa, hsa⟩ : ∃ sa, sa = hissArgs := ⟨_, rfl⟩
  unfold hissArgs at hsa
  obtain ⟨s, cols, h1, h2, h3⟩ := C125_observed_partial hissLib hissSetup (hissOps v) (hissState v) rfl "sky" (hissField v) _ 5 5 2 3 3
    1 1 1 0 0 0 .peak .none _ _ _ sa (hiss_observing v (List.replicate 4 ⟨false, 0, 0⟩) sa (by rw [hsa]) (by rw [hsa])
      (by rw [hsa]) (by rw [hsa])) (by
      rw [hsa]
      intro p hp
      rw [List.eq_of_mem_replicate hp]
      simp)
  have hrun : s = run (grids hissLib) (fresh hissSetup)
      (hissOps v ++ [.mapFields ["sky"] { kernel := some (.pair 3 3), opts := (.peak, .none) }]) := by
    have : run (grids hissLib) (fresh hissSetup)
      (hissOps v ++ [.mapFields ["sky"] { kernel := some (.pair 3 3), opts := (.peak, .none) }]) =
      (mapFields (grids hissLib) (hissState v) ["sky"] { kernel := some (.pair 3 3), opts := (.peak, .none) }).1 := by
      unfold run hissState
      rw [List.foldl_append]
      rfl
    rw [this]
    exact (congrArg Prod.fst h1).symm
  have hdets : s.detectors = (hissState v).detectors ∧ s.detNames = (hissState v).detNames := by
    obtain ⟨s', M, N, m1, -, m2, m3, -⟩ := mapped_sky hissLib (hissState v)
      (run_ordered (grids hissLib) (hissOps v) _ (fresh_ordered hissSetup)) "sky" (hissField v) _ 5 5 2 3 3
      1 1 1 0 0 0 .peak .none _ _ _ sa (hiss_observing v (List.replicate 4 ⟨false, 0, 0⟩) sa (by rw [hsa]) (by rw [hsa])
        (by rw [hsa]) (by rw [hsa]))
    rw [h1] at m1
    cases m1
    exact ⟨m2, m3⟩
  obtain ⟨k1, k2, k3⟩ := hissState_facts v
  rw [k1] at h3
  obtain ⟨c, cs, b1, b2, rfl⟩ := List.forall₂_cons_left_iff.1 h3
  obtain rfl := List.forall₂_nil_left_iff.1 b2
  obtain ⟨det, N, f1, f2, f3, f4⟩ := b1
  have hdet : det.pointing = ⟨true, 0, 0⟩ := by
    rw [k2] at f1
    simp [PyDict.get?] at f1
    rw [← f1]
  have hN : ∀ k < 2, N k = 1 := by
    intro k hk
    have := (f2 k hk).1
    simp only [Map.Spec.beamValues, List.mem_flatMap, List.mem_map] at this
    obtain ⟨_, _, _, _, h⟩ := this
    exact h.symm
  have hlen : c.length = 4 := by rw [f3, hsa]; rfl
  have hmid : InSpan 5 (1 : ℝ) 0 0 2 := ⟨by decide, by norm_num, by norm_num⟩
  have hseen : seen ⟨[5, 5, 2, 1], fun i => if i = [2, 2, 1, 0] then v else 0⟩ (fun _ _ _ => 1) (fun _ => 1) N
      5 5 2 3 3 1 1 1 0 2 2 = v / 2 := by
    simp only [seen, Map.Spec.weightedMean, Map.Spec.smeared, List.range_succ, List.range_zero, List.nil_append,
      List.map_cons, List.map_nil, List.map_append, hN 0 (by decide), hN 1 (by decide)]
    norm_num [Map.Spec.cell, Map.Spec.Reaches]
  have hval : ∀ t < 4, c[t]? = some (some (v / 2)) := by
    intro t ht
    have h1 : c[t]? = some (c[t]'(by omega)) := List.getElem?_eq_getElem (by omega)
    have := (f4 t ⟨false, 0, 0⟩ 0 _ (by rw [hsa]; exact List.getElem?_replicate_of_lt ht)
      (List.getElem?_replicate_of_lt ht) h1).1 2 2 (by rw [hdet]; simpa using hmid) (by rw [hdet]; simpa using hmid)
    rw [h1, this, hseen, zero_add]
  exact ⟨s, c, h1, hrun, hdets.1, by rw [hdets.2, k1], by rw [hsa] at h2; exact h2, hval⟩

/-- The field with one point of value 3 in one of two channels: pointed at it four times for a quarter of a second each,
the detector with an rms of 2 in one second has after averaging a variance of 4, as after one second, around 3/2 plus
the bias of 1/2. -/
example : ∃ (s : State Unit Unit (Point ℝ) (Grid ℝ ℝ) (Arr ℝ) (Grid ℝ ℝ) ℝ)
    (cols' : (Name × Name × ℕ → ℝ) → List (List (Option ℝ))),
    mapFields (grids hissLib) (hissState 3) ["sky"] { kernel := some (.pair 3 3), opts := (.peak, .none) } = (s, .ok ()) ∧
    (∀ ω, sampleFields (grids hissLib) s ["sky"]
      { positions := List.replicate 4 ⟨false, 0, 0⟩, dt := some (1 / 4), seed := fun f d t => ω (f, d, t) } =
        .ok [("sky", cols' ω)]) ∧
    ∫ ω, averageOf (cols' ω) 0 (Finset.range 4) ∂hiss = 2 ∧
    Var[fun ω => averageOf (cols' ω) 0 (Finset.range 4); hiss] = 4 := by
  obtain ⟨s, c, h1, hrun, hdets, k1, h2, hval⟩ := hiss_sampled 3
  obtain ⟨cols', o1, o2, o3⟩ := C149_average hissLib hissSetup _ s hrun tape _ hiss_fresh
    (fun _ => 2) (fun _ => 1 / 2) (by
      intro d hd
      rw [k1] at hd
      simp only [List.mem_cons, List.not_mem_nil, or_false] at hd
      subst hd
      exact ⟨by norm_num, hiss_white 3 s hdets⟩) (1 / 4) (by norm_num) ["sky"] hissArgs _ h2 0 "sky"
    [c] rfl 0 "a" (by rw [k1]; rfl) (Finset.range 4) ⟨0, by simp⟩
    (fun t ht => ⟨c, 3 / 2, rfl, hval t (Finset.mem_range.1 ht)⟩)
  refine ⟨s, cols', h1, fun ω => ?_, ?_, ?_⟩
  · obtain ⟨out', e1, e2⟩ := o1 ω
    obtain ⟨fs, groups, q1, -, -, q4, -⟩ := sampleFields_ok (grids hissLib) s _ _ _ e1
    have hfs : fs = ["sky"] := by
      unfold chosenFields at q1
      rw [if_neg (by simp)] at q1
      split at q1
      · cases q1
      · simp only [Except.ok.injEq] at q1; exact q1.symm
    rw [hfs] at q4
    obtain ⟨p, hp⟩ : ∃ p, out' = [p] := by
      rw [← List.length_eq_one_iff]
      simpa using congrArg List.length q4
    rw [hp] at e2
    cases e2
    rw [hp] at e1
    exact e1
  · rw [o2]
    simp only [averageOf, List.getD_cons_zero]
    rw [Finset.sum_congr rfl (fun t ht => by
      rw [List.getD_eq_getElem?_getD, hval t (Finset.mem_range.1 ht)])]
    norm_num
  · rw [o3]
    norm_num

end Verif.Inst
