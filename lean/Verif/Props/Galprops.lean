import Verif.Lemmas.Galprops
import Mathlib.Analysis.SpecialFunctions.Pow.Real

set_option linter.unusedSectionVars false

/-!
# C45: duty cycles, cuts and limits; C46: results follow the generator passed; C88: every galaxy for
itself; C89: documented lines and sets; C90: one value per galaxy or an exception
-/

namespace Verif.Gal

open Verif.Gal.Spec

variable {K G : Type} [Field K] [LinearOrder K] [IsStrictOrderedRing K]

/-! ## Examples of functions and generators -/

/-- The functions on the real numbers; the error function is any function with values in `[-1,1]`. -/
noncomputable def realFn (erf : ℝ → ℝ) : Fn ℝ where
  log10 := fun x => Real.log x / Real.log 10
  exp := Real.exp
  erf := erf
  pow := fun x y => x ^ y
  ln10 := Real.log 10

theorem realFn_usual (erf : ℝ → ℝ) (h : ∀ x, -1 ≤ erf x ∧ erf x ≤ 1) : Usual (realFn erf) where
  pos := fun _ y hx => Real.rpow_pos_of_pos hx y
  nonneg := fun _ y hx => Real.rpow_nonneg hx y
  erf_le := fun x => (h x).2
  le_erf := fun x => (h x).1

/-- Generators that count: the state is the number of calls. -/
def counter : Rng ℚ ℕ where
  normal := fun n g => (List.replicate n (g : ℚ), g + 1)
  uniform := fun n g => (List.replicate n ((g : ℚ) / (g + 1)), g + 1)

theorem counter_lawful : Lawful counter where
  normal := by intro n g; simp [counter]
  uniform := by intro n g; simp [counter]

/-- Functions with rational values. -/
def ratFn : Fn ℚ where
  log10 := fun x => x
  exp := fun _ => 1
  erf := fun _ => 0
  pow := fun x y => if 0 < x then 1 + |y| else 0
  ln10 := 2

theorem ratFn_usual : Usual ratFn where
  pos := fun x y hx => by simp only [ratFn, hx, if_true]; positivity
  nonneg := fun x y _ => by simp only [ratFn]; split <;> positivity
  erf_le := fun x => by simp [ratFn]
  le_erf := fun x => by simp [ratFn]

/-! ## Fractions -/

/-- The duty cycles of `f_duty` are fractions, one for every redshift, if the ages are positive
in the range of the redshifts. -/
theorem C45_duty_fraction (age : K → K) (sf : K) (z : Arg K) (hsf : 0 ≤ sf) (lo hi : K)
    (hz : ∀ x ∈ z.list, lo ≤ x ∧ x ≤ hi) (hage : ∀ x, lo ≤ x → x ≤ hi → 0 < age x) :
    (fDuty age sf z).length = z.list.length ∧ ∀ f ∈ fDuty age sf z, Fraction f := by
  refine ⟨by simp [fDuty, ages_length], ?_⟩
  intro f hf
  simp only [fDuty, List.mem_map] at hf
  obtain ⟨a, ha, rfl⟩ := hf
  have := div_nonneg hsf (ages_pos age z.list lo hi hz hage a ha).le
  unfold atMostOne
  split
  · exact ⟨zero_le_one, le_refl _⟩
  · rename_i h
    exact ⟨this, not_lt.1 h⟩

/-- Two duty cycles, one of which is limited. -/
example : fDuty (fun z : ℚ => 14 / (1 + z)) (1 / 2) (.many [1, 55]) = [1 / 14, 1] := by decide +kernel

/-- The duty cycles of `yang22` are fractions. -/
theorem C45_yang_fraction (fn : Fn K) (hfn : Usual fn) (m z : K) (hm : 0 ≤ m) :
    Fraction (yangDuty fn m z) := by
  unfold yangDuty
  split
  · have h1 : 0 < fn.pow 10 (1173 / 100 + 6634 / 10000 * z) := hfn.pos _ _ (by norm_num)
    have h2 := hfn.nonneg (m / fn.pow 10 (1173 / 100 + 6634 / 10000 * z))
      (137 / 100 - 190 / 1000 * z + 215 / 10000 * z ^ 2) (div_nonneg hm h1.le)
    constructor
    · exact inv_nonneg.2 (by linarith)
    · exact inv_le_one_of_one_le₀ (by linarith)
  · exact ⟨zero_le_one, le_refl _⟩

/-- The fraction of starbursts is one. -/
theorem C45_starburst_fraction (z : K) (hz : -1 ≤ z) : Fraction (sbfrac z) := by
  unfold sbfrac Fraction
  split
  · constructor <;> norm_num
  · rename_i h
    push Not at h
    constructor <;> linarith

/-- The fraction of star forming galaxies is one, if the quenched fraction at the lowest masses is. -/
theorem C45_starforming_fraction (fn : Fn K) (hfn : Usual fn) (p : B17 K) (m z : K)
    (h : Fraction (p.fq00 * fn.pow (1 + z) p.gamma)) : Fraction (sffrac fn p m z) := by
  unfold sffrac
  generalize (fn.log10 m - (p.logmt0 + p.alpha1 * z + p.alpha2 * z ^ 2)) /
      (p.sigsf0 + p.beta1 * z + p.beta2 * z ^ 2) = t
  generalize p.fq00 * fn.pow (1 + z) p.gamma = q at h
  obtain ⟨h1, h2⟩ := h
  have e1 := hfn.erf_le t
  have e2 := hfn.le_erf t
  constructor
  · apply mul_nonneg (mul_nonneg (by linarith) (by norm_num)) (by linarith)
  · have : (1 - q) * (1 / 2) * (1 - fn.erf t) ≤ 1 * (1 / 2) * 2 := by
      apply mul_le_mul _ (by linarith) (by linarith) (by norm_num)
      apply mul_le_mul_of_nonneg_right (by linarith) (by norm_num)
    linarith

/-- The default parameters of `bethermin17_base` (`sfr_bethermin17.py:70-76`). -/
noncomputable def b17Default : B17 ℝ where
  fq00 := 1017 / 10000
  gamma := -1039 / 1000
  logmt0 := 1053 / 100
  alpha1 := 2232 / 10000
  alpha2 := 913 / 10000
  sigsf0 := 8488 / 10000
  beta1 := 418 / 10000
  beta2 := -159 / 10000
  m0 := 1 / 2
  m1 := 36 / 100
  a0 := 3 / 2
  a1 := 3 / 10
  a2 := 5 / 2
  lowz := true
  sigma := 3 / 10
  msoffset := 87 / 100
  sboffset := 53 / 10
  limit := 1000

/-- With the default parameters this is so at every redshift. -/
theorem C45_starforming_default (erf : ℝ → ℝ) (h : ∀ x, -1 ≤ erf x ∧ erf x ≤ 1) (m z : ℝ)
    (hz : 0 ≤ z) : Fraction (sffrac (realFn erf) b17Default m z) := by
  apply C45_starforming_fraction _ (realFn_usual erf h)
  show Fraction ((1017 / 10000 : ℝ) * (1 + z) ^ (-1039 / 1000 : ℝ))
  have h1 : (1 + z) ^ (-1039 / 1000 : ℝ) ≤ 1 :=
    Real.rpow_le_one_of_one_le_of_nonpos (by linarith) (by norm_num)
  have h2 : 0 ≤ (1 + z) ^ (-1039 / 1000 : ℝ) := Real.rpow_nonneg (by linarith) _
  constructor
  · positivity
  · nlinarith

/-! ## Switched off -/

/-- `keating16` gives zero below the minimum mass, and otherwise what it would give without a minimum
mass (that is, with one, `mLow`, that all masses reach) from the same generator. -/
theorem C45_keating_cut (fn : Fn K) (R : Rng K G) (hR : Lawful R) (mass : Arg K)
    (mMin mLow a sig : K) (scatter : Bool) (w : World G) (hlow : ∀ m ∈ mass.list, mLow ≤ m) :
    ∃ before after,
      (keating16 fn R mass mLow a scatter sig w).1 = .ok (.many before) ∧
      (keating16 fn R mass mMin a scatter sig w).1 = .ok (.many after) ∧
      before.length = mass.list.length ∧
      Switched (fun i => ∃ m, mass.list[i]? = some m ∧ mMin ≤ m) before after := by
  obtain ⟨y, hy, -, hm⟩ := scatterOwn_one fn hR scatter (.many (mass.list.map (fun m => a * m))) sig
    false w
  obtain ⟨ys, rfl, hl⟩ := hm _ rfl
  simp only [List.length_map] at hl
  have hb : cutBelow mLow mass.list ys = ys := by
    apply List.ext_getElem?
    intro i
    simp only [cutBelow, List.getElem?_zipWith]
    rcases hi : mass.list[i]? with _ | m
    · have : ys[i]? = none := by
        rw [List.getElem?_eq_none_iff] at hi ⊢; omega
      simp [this]
    · rcases ys[i]? with _ | v
      · rfl
      · simp [not_lt.2 (hlow m (List.mem_of_getElem? hi))]
  refine ⟨ys, cutBelow mMin mass.list ys, ?_, ?_, hl, ?_⟩
  · simp only [keating16]
    rw [hy]
    show Except.ok (Arg.many (cutBelow mLow mass.list ys)) = _
    rw [hb]
  · simp only [keating16]
    rw [hy]
    rfl
  · have := switched_zipWith ys mass.list (fun m => decide (m < mMin)) hl.symm
    simp only [decide_eq_true_eq] at this
    refine switched_congr this ?_
    intro i _
    simp [not_lt]

/-- Three halos, one of them too light. -/
example : (keating16 ratFn counter (.many [5, 20, 30]) 10 2 true (1 / 2) ⟨2, 0, 0⟩).1
    = .ok (.many [0, 80, 120]) := by decide +kernel

/-- The halos of `pullen13` are luminous if their random number does not exceed their duty cycle. -/
theorem C45_pullen_duty (R : Rng K G) (hR : Lawful R) (age : K → K) (masses : List K) (z : Arg K)
    (sf : K) (w : World G) (hz : z.list.length = masses.length ∨ z.list.length = 1) :
    ∃ after, (pullen13 R age (.many masses) z true sf w).1 = .ok (.many after) ∧
      Switched (fun i => ∃ u f, (R.uniform masses.length w.own).1[i]? = some u ∧
          ((fDuty age sf z)[i]? = some f ∨ fDuty age sf z = [f]) ∧ u ≤ f)
        (masses.map (fun m => 10 ^ 6 * m / (5 * 10 ^ 11))) after := by
  have hu := hR.uniform masses.length w.own
  have hlf : (fDuty age sf z).length = z.list.length := by simp [fDuty, ages_length]
  generalize huu : (R.uniform masses.length w.own).1 = us at hu
  have key : ∃ mask, zipL (fun f q => decide (f > q)) us (fDuty age sf z) = .ok mask ∧
      mask.length = masses.length ∧ ∀ i, i < masses.length → ∃ u f, us[i]? = some u ∧
        ((fDuty age sf z)[i]? = some f ∨ fDuty age sf z = [f]) ∧ mask[i]? = some (decide (u > f)) ∧
        ∀ f', (fDuty age sf z)[i]? = some f' ∨ fDuty age sf z = [f'] → f' = f := by
    by_cases h1 : z.list.length = masses.length
    · refine ⟨_, zipL_same _ _ _ (by omega), by simp [hu, hlf, h1], ?_⟩
      intro i hi
      have hi1 : i < us.length := by omega
      have hi2 : i < (fDuty age sf z).length := by omega
      refine ⟨us[i], (fDuty age sf z)[i], by simp [hi1], Or.inl (by simp [hi2]), ?_, ?_⟩
      · simp [List.getElem?_zipWith, hi1, hi2]
      · intro f' hf'
        rcases hf' with h | h
        · simp only [List.getElem?_eq_getElem hi2, Option.some.injEq] at h; exact h.symm
        · have hl : (fDuty age sf z).length = 1 := by rw [h]; rfl
          have : i = 0 := by omega
          subst this
          simp [h]
    · have h1' : z.list.length = 1 := by tauto
      have : ∃ f, fDuty age sf z = [f] := List.length_eq_one_iff.1 (by omega)
      obtain ⟨f, hf⟩ := this
      rw [hf]
      refine ⟨_, zipL_single _ _ _, by simp [hu], ?_⟩
      intro i hi
      have hi1 : i < us.length := by omega
      refine ⟨us[i], f, by simp [hi1], Or.inr rfl, by simp [hi1], ?_⟩
      intro f' hf'
      rcases hf' with h | h
      · rcases i with _ | i
        · simp at h; exact h.symm
        · simp at h
      · simp at h; exact h.symm
  obtain ⟨mask, hm, hl, hall⟩ := key
  refine ⟨List.zipWith (fun off l => if off then 0 else l) mask (masses.map pullenMean), ?_, ?_⟩
  · have hs : switchOff (masses.map pullenMean) us (fDuty age sf z)
        = .ok (List.zipWith (fun off l => if off then 0 else l) mask (masses.map pullenMean)) := by
      unfold switchOff
      rw [hm]
      simp [hl]
    show Except.map Arg.many (switchOff (masses.map pullenMean) (R.uniform masses.length w.own).1
        (fDuty age sf z)) = _
    rw [huu, hs]
    rfl
  · have := switched_zipWith (masses.map pullenMean) mask id (by simp [hl])
    simp only [id] at this
    refine switched_congr this ?_
    intro i hi
    simp only [List.length_map] at hi
    obtain ⟨u, f, a1, a2, a3, a4⟩ := hall i hi
    constructor
    · rintro ⟨b, hb, hb'⟩
      rw [a3] at hb
      simp only [Option.some.injEq] at hb
      subst hb
      exact ⟨u, f, a1, a2, by simpa using hb'⟩
    · rintro ⟨u', f', b1, b2, b3⟩
      have := a4 f' b2
      subst this
      rw [a1] at b1; cases b1
      exact ⟨_, a3, by simpa using b3⟩

/-- Of two halos the one at the time when the universe was young is switched on. -/
example : (pullen13 counter (fun z : ℚ => 10 / (1 + z)) (.many [5 * 10 ^ 11, 10 ^ 12]) (.many [0, 4])
    true 1 ⟨1, 0, 0⟩).1 = .ok (.many [0, 2 * 10 ^ 6]) := by decide +kernel

/-- Halos with duty cycle `duty` are luminous if their random number is below it. -/
theorem dutyModel_duty (R : Rng K G) (hR : Lawful R) (mean : K → K) (mass : Arg K) (duty : K)
    (w : World G) :
    ∃ after, (dutyModel R mean mass duty true w).1 = .ok (.many after) ∧
      Switched (fun i => ∃ u, (R.uniform mass.list.length w.own).1[i]? = some u ∧ u < duty)
        (mass.list.map mean) after := by
  have hu := hR.uniform mass.list.length w.own
  refine ⟨_, rfl, ?_, ?_⟩
  · simp [switchOn, hu]
  · intro i x hx
    simp only [List.getElem?_map, Option.map_eq_some_iff] at hx
    obtain ⟨m, hm, rfl⟩ := hx
    have hi : i < mass.list.length := (List.getElem?_eq_some_iff.1 hm).1
    obtain ⟨u, hu'⟩ : ∃ u, (R.uniform mass.list.length w.own).1[i]? = some u :=
      ⟨_, List.getElem?_eq_getElem (by omega)⟩
    refine ⟨if u < duty then mean m else 0, by simp [switchOn, List.getElem?_zipWith, hm, hu'], ?_, ?_⟩
    · rintro ⟨u', h1, h2⟩
      rw [hu'] at h1; cases h1
      rw [if_pos h2]
    · intro hn
      rw [if_neg (fun h => hn ⟨u, hu', h⟩)]

/-- The halos of `lidz11`. -/
theorem C45_lidz_duty (R : Rng K G) (hR : Lawful R) (mass : Arg K) (duty : K) (w : World G) :
    ∃ after, (lidz11 R mass duty true w).1 = .ok (.many after) ∧
      Switched (fun i => ∃ u, (R.uniform mass.list.length w.own).1[i]? = some u ∧ u < duty)
        (mass.list.map (fun m => 2800 * (m / 10 ^ 8))) after :=
  dutyModel_duty R hR lidzMean mass duty w

/-- The halos of `hcn_breysse`. -/
theorem C45_breysse_duty (fn : Fn K) (R : Rng K G) (hR : Lawful R) (mass : Arg K) (duty : K)
    (w : World G) :
    ∃ after, (hcnBreysse fn R mass duty true w).1 = .ok (.many after) ∧
      Switched (fun i => ∃ u, (R.uniform mass.list.length w.own).1[i]? = some u ∧ u < duty)
        (mass.list.map (fun m => 17 / 10 ^ 16 * fn.pow m (167 / 100))) after :=
  dutyModel_duty R hR (breysseMean fn) mass duty w

example : (lidz11 counter (.many [10 ^ 8, 10 ^ 9]) (1 / 10) true ⟨0, 0, 0⟩).1
    = .ok (.many [2800, 28000]) ∧
    (lidz11 counter (.many [10 ^ 8, 10 ^ 9]) (1 / 10) true ⟨1, 0, 0⟩).1 = .ok (.many [0, 0]) := by
  decide +kernel

/-- `yang22` without duty cycle, for the lines that work. -/
theorem yang_plain (fn : Fn K) (R : Rng K G) (hR : Lawful R) (fit : String → K → YFit K)
    (masses zs : List K) (line : String) (kind : YLine) (hkind : yangLine line = .ok kind)
    (hci : kind ≠ .ci) (scatter : Bool) (fix : Option K) (w : World G)
    (hlen : zs.length = masses.length) :
    ∃ before w', before.length = masses.length ∧ w'.glob = w.glob ∧
      (scatter = false → before = List.zipWith (fun m x => yangMean fn (fit line x) m) masses zs) ∧
      ∀ fduty, yang22 fn R fit (.many masses) (.many zs) line fduty scatter fix w =
        if fduty then yangSwitch fn R (.many masses) (.many zs) (.many before) w'
        else (.ok (.many before), w') := by
  have hfit : yangFit fit line kind (.many zs)
      = .ok (.many zs, .many (zs.map (fun x => (fit line x).sig))) := by
    cases kind <;> first | rfl | exact absurd rfl hci
  have hl : zipA (fun m x => yangMean fn (fit line x) m) (.many masses) (.many zs)
      = .ok (.many (List.zipWith (fun m x => yangMean fn (fit line x) m) masses zs)) := by
    simp only [zipA]; rw [zipL_same _ _ _ hlen.symm]; rfl
  have hs : ∃ ys, (scatterOwn fn R scatter
      (.many (List.zipWith (fun m x => yangMean fn (fit line x) m) masses zs))
      (fix.elim (.many (zs.map (fun x => (fit line x).sig))) .one) false w).1 = .ok (.many ys) ∧
      ys.length = masses.length := by
    cases fix with
    | some d =>
      obtain ⟨y, h1, -, h2⟩ := scatterOwn_one fn hR scatter
        (.many (List.zipWith (fun m x => yangMean fn (fit line x) m) masses zs)) d false w
      obtain ⟨ys, rfl, hy⟩ := h2 _ rfl
      exact ⟨ys, h1, by simp [hy, hlen]⟩
    | none =>
      obtain ⟨ys, h1, h2⟩ := scatterOwn_many fn hR scatter
        (List.zipWith (fun m x => yangMean fn (fit line x) m) masses zs)
        (zs.map (fun x => (fit line x).sig)) w (by simp [hlen])
      exact ⟨ys, h1, by simp [h2, hlen]⟩
  obtain ⟨ys, h1, h2⟩ := hs
  refine ⟨ys, _, h2, (scatterOwn_frame fn R scatter
      (.many (List.zipWith (fun m x => yangMean fn (fit line x) m) masses zs))
      (fix.elim (.many (zs.map (fun x => (fit line x).sig))) .one) false w).2, ?_, ?_⟩
  · rintro rfl
    rw [scatterOwn_off] at h1
    simpa using h1.symm
  · intro fduty
    unfold yang22
    rw [hkind]
    simp only
    rw [hfit]
    simp only
    rw [hl]
    simp only
    rcases hs : scatterOwn fn R scatter
      (.many (List.zipWith (fun m x => yangMean fn (fit line x) m) masses zs))
      (fix.elim (.many (zs.map (fun x => (fit line x).sig))) .one) false w with ⟨r, w'⟩
    rw [hs] at h1
    simp only at h1
    subst h1
    rfl

/-- For the lines of CII and CO `yang22` gives the same luminosities with duty cycle as without, except
zero for the halos whose random number exceeds their duty cycle. -/
theorem C45_yang_duty (fn : Fn K) (R : Rng K G) (hR : Lawful R) (fit : String → K → YFit K)
    (masses zs : List K) (line : String) (scatter : Bool) (fix : Option K) (w : World G)
    (hline : line ∈ ["CII", "CO1-0", "CO2-1", "CO3-2", "CO4-3", "CO5-4"])
    (hlen : zs.length = masses.length) :
    ∃ before after,
      (yang22 fn R fit (.many masses) (.many zs) line false scatter fix w).1 = .ok (.many before) ∧
      (yang22 fn R fit (.many masses) (.many zs) line true scatter fix w).1 = .ok (.many after) ∧
      before.length = masses.length ∧
      Switched (fun i => ∃ u m z, (R.uniform masses.length w.glob).1[i]? = some u ∧
        masses[i]? = some m ∧ zs[i]? = some z ∧ u ≤ yangDuty fn m z) before after := by
  obtain ⟨kind, hkind, hci⟩ : ∃ kind, yangLine line = .ok kind ∧ kind ≠ .ci := by
    simp only [List.mem_cons, List.not_mem_nil, or_false] at hline
    rcases hline with rfl | rfl | rfl | rfl | rfl | rfl
    · exact ⟨.cii, rfl, by decide⟩
    all_goals exact ⟨.co, rfl, by decide⟩
  obtain ⟨before', w', hb, hglob, -, hrun⟩ := yang_plain fn R hR fit masses zs line kind hkind hci
    scatter fix w hlen
  have hmask : zipL (fun f q => decide (f > q)) (R.uniform masses.length w.glob).1
      (List.zipWith (yangDuty fn) masses zs)
      = .ok (List.zipWith (fun f q => decide (f > q)) (R.uniform masses.length w.glob).1
        (List.zipWith (yangDuty fn) masses zs)) :=
    zipL_same _ _ _ (by simp [hR.uniform, hlen])
  have hml : (List.zipWith (fun f q => decide (f > q)) (R.uniform masses.length w.glob).1
        (List.zipWith (yangDuty fn) masses zs)).length = before'.length := by
    simp [hR.uniform, hlen, hb]
  refine ⟨before', List.zipWith (fun off l => if off then 0 else l)
    (List.zipWith (fun f q => decide (f > q)) (R.uniform masses.length w.glob).1
        (List.zipWith (yangDuty fn) masses zs)) before', ?_, ?_, hb, ?_⟩
  · rw [hrun]; rfl
  · rw [hrun]
    have hs : switchOff before' (R.uniform masses.length w.glob).1
        (List.zipWith (yangDuty fn) masses zs)
        = .ok (List.zipWith (fun off l => if off then 0 else l)
          (List.zipWith (fun f q => decide (f > q)) (R.uniform masses.length w.glob).1
            (List.zipWith (yangDuty fn) masses zs)) before') := by
      unfold switchOff
      rw [hmask]
      simp only
      rw [if_pos hml]
    have hf : yangFduty fn (.many masses) (.many zs) = .ok (List.zipWith (yangDuty fn) masses zs) := by
      simp [yangFduty, Arg.list, hlen]
    simp only [if_true, yangSwitch, hf]
    rw [hb, hglob, hs]
    rfl
  · have := switched_zipWith before' _ id hml
    simp only [id] at this
    refine switched_congr this ?_
    intro i hi
    have h1 : i < masses.length := by omega
    have h2 : i < zs.length := by omega
    have h3 : i < (R.uniform masses.length w.glob).1.length := by rw [hR.uniform]; omega
    simp only [List.getElem?_zipWith, List.getElem?_eq_getElem h1,
      List.getElem?_eq_getElem h2, List.getElem?_eq_getElem h3, Option.some.injEq]
    simp

/-! ## Star formation rates -/

/-- Every galaxy of known stellar mass gets a rate between zero and the limit; quenched galaxies
form no stars and are no starbursts. -/
theorem C45_rates (fn : Fn K) (hfn : Usual fn) (R : Rng K G) (hR : Lawful R) (p : B17 K)
    (hlim : 0 ≤ p.limit) (hms : 0 ≤ p.msoffset) (hsb : 0 ≤ p.sboffset) (ms : List (Option K))
    (z : Arg K) (w : World G) (hz : z.list.length = ms.length ∨ ∃ x, z = .one x) :
    ∃ gs, (b17Sfr fn R p ms z w).1 = .ok gs ∧ gs.length = ms.length ∧
      ∀ (i : ℕ) (g : Galaxy K), gs[i]? = some g →
        ¬ (g.quenched = true ∧ g.starburst = true) ∧
        (∀ m, ms[i]? = some (some m) → ∃ s, g.sfr = some s ∧ 0 ≤ s ∧ s ≤ p.limit ∧
          (g.quenched = true → s = 0)) ∧
        (ms[i]? = some none → g.sfr = none) := by
  have hzs : ∃ zs, matched p ms z = .ok (ms, zs) ∧ zs.length = ms.length := by
    rcases z with x | xs
    · exact ⟨_, rfl, by simp⟩
    · rcases hz with h | ⟨x, h⟩
      · simp only [Arg.list] at h
        exact ⟨xs, by simp [matched, h], h⟩
      · cases h
  obtain ⟨zs, hzs, hzl⟩ := hzs
  unfold b17Sfr
  rw [hzs]
  simp only
  generalize hn : R.normal ms.length w.own = n
  generalize hu : R.uniform ms.length n.2 = u
  generalize hv : R.uniform ms.length u.2 = v
  have ln : n.1.length = ms.length := by rw [← hn]; exact hR.normal _ _
  have lu : u.1.length = ms.length := by rw [← hu]; exact hR.uniform _ _
  have lv : v.1.length = ms.length := by rw [← hv]; exact hR.uniform _ _
  refine ⟨_, rfl, ?_⟩
  generalize n.1 = ns at ln
  generalize u.1 = us at lu
  generalize v.1 = vs at lv
  clear hn hu hv hz hzs
  induction ms generalizing zs ns us vs with
  | nil => simp [b17All]
  | cons m ms ih =>
    match zs, ns, us, vs, hzl, ln, lu, lv with
    | z :: zs, n :: ns, u :: us, v :: vs, hzl, ln, lu, lv =>
      simp only [List.length_cons, Nat.add_right_cancel_iff] at hzl ln lu lv
      obtain ⟨h1, h2⟩ := ih zs hzl ns ln us lu vs lv
      refine ⟨by simp [b17All, h1], ?_⟩
      intro i g hg
      rcases i with _ | i
      · simp only [b17All, List.getElem?_cons_zero, Option.some.injEq] at hg
        subst hg
        refine ⟨?_, ?_, ?_⟩
        · simp only [b17One]
          rintro ⟨hq, hs⟩
          rw [if_pos hq] at hs
          cases hs
        · intro m' hm'
          simp only [List.getElem?_cons_zero, Option.some.injEq] at hm'
          subst hm'
          simp only [b17One, rate0, Option.map_some]
          have hr : 0 ≤ p.msoffset * sfms fn p m' z * fn.pow 10 (p.sigma * n) := by
            have h1 : 0 < sfms fn p m' z := hfn.pos _ _ (by norm_num)
            have h2 : 0 < fn.pow 10 (p.sigma * n) := hfn.pos _ _ (by norm_num)
            positivity
          have hr' : 0 ≤ p.msoffset * sfms fn p m' z * fn.pow 10 (p.sigma * n)
              * (p.sboffset / p.msoffset) := mul_nonneg hr (div_nonneg hsb hms)
          have lim : ∀ x : K, 0 ≤ x → 0 ≤ (if x > p.limit then p.limit else x) ∧
              (if x > p.limit then p.limit else x) ≤ p.limit := by
            intro x hx
            split
            · exact ⟨hlim, le_refl _⟩
            · rename_i hc; exact ⟨hx, not_lt.1 hc⟩
          by_cases hq : v > sffrac fn p m' z
          · refine ⟨0, ?_, le_refl _, hlim, fun _ => rfl⟩
            simp [hq, not_lt.2 hlim]
          · by_cases hs : u < sbfrac z
            · refine ⟨_, by simp only [hq, hs, decide_true, decide_false, if_true,
                Bool.false_eq_true, if_false, Option.map_some], (lim _ hr').1, (lim _ hr').2, ?_⟩
              simp [hq]
            · refine ⟨_, by simp only [hq, hs, decide_false,
                Bool.false_eq_true, if_false, Option.map_some], (lim _ hr).1, (lim _ hr).2, ?_⟩
              simp [hq]
        · intro hm'
          simp only [List.getElem?_cons_zero, Option.some.injEq] at hm'
          subst hm'
          simp [b17One, rate0]
      · simp only [b17All, List.getElem?_cons_succ] at hg ⊢
        exact h2 i g hg

/-- Parameters for an example. -/
def b17Small : B17 ℚ := ⟨1 / 10, 0, 10, 0, 0, 1, 0, 0, 0, 0, 0, 0, 0, false, 0, 1, 5, 3⟩

/-- Generators whose numbers differ from galaxy to galaxy. -/
def steps : Rng ℚ ℕ where
  normal := fun n g => (List.replicate n 0, g + 1)
  uniform := fun n g => ((List.range n).map (fun (i : ℕ) => ((i : ℚ) + 1 / 100) / n), g + 1)

theorem steps_lawful : Lawful steps where
  normal := by intro n g; simp [steps]
  uniform := by intro n g; simp [steps]

/-- A starburst at the limit, an ordinary galaxy, one without stellar mass and a quenched one. -/
example : (b17Sfr ratFn steps b17Small [some 1000000000, some 1000000000, none, some 1000000000] (.one 2)
      ⟨0, 0, 0⟩).1
    = .ok [⟨some 3, true, false⟩, ⟨some 2, false, false⟩, ⟨none, false, false⟩,
        ⟨some 0, false, true⟩] := by decide +kernel

/-- These parameters fulfil the conditions of `C45_rates`. -/
example : 0 ≤ b17Small.limit ∧ 0 ≤ b17Small.msoffset ∧ 0 ≤ b17Small.sboffset := by
  simp [b17Small]

/-- One of two halos is switched off. -/
example : (yang22 ratFn steps (fun _ _ => ⟨0, 0, 0, 0, 0⟩) (.many [1, 1]) (.many [5, 0]) "CII" true
      false none ⟨0, 0, 0⟩).1 = .ok (.many [1, 0]) ∧
    (yang22 ratFn steps (fun _ _ => ⟨0, 0, 0, 0, 0⟩) (.many [1, 1]) (.many [5, 0]) "CII" false
      false none ⟨0, 0, 0⟩).1 = .ok (.many [1, 1]) := by decide +kernel

end Verif.Gal
