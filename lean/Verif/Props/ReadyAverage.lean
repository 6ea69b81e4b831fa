import Verif.Spec.ReadyAverage
import Verif.Props.Ready
import Verif.Props.GalAverage

/-!
# C143: ready-made properties on average
-/

set_option linter.unusedSectionVars false

namespace Verif.Ready

open Verif.Gal (Fn Rng World realFn)
open Verif.Gal.Spec (Random Fraction)
open Verif.Handler (Name State MakeOpts hasProperty returnProperty make)
open MeasureTheory ProbabilityTheory
open Spec

variable {Ω G : Type} [MeasurableSpace Ω] {P : Measure Ω} {R : Ω → Rng ℝ G}

theorem normals_random (hR : Random P R) (w : World G) (n : ℕ) (p : Which) (i : ℕ) (hi : i < n) :
    HasLaw (fun ω => (normals (R ω) w n p).getD i 0) (gaussianReal 0 1) P := by
  have key : ∀ g, HasLaw (fun ω => ((R ω).normal n g).1.getD i 0) (gaussianReal 0 1) P := by
    intro g
    obtain ⟨N, h1, h2⟩ := hR.normal n g
    have : (fun ω => ((R ω).normal n g).1.getD i 0) = N i := by
      funext ω
      rw [h1]; simp [hi]
    rw [this]; exact h2 i
  cases p <;> exact key _

theorem uniforms_random (hR : Random P R) (w : World G) (n : ℕ) (p : Which) (i : ℕ) (hi : i < n) :
    HasLaw (fun ω => (uniforms (R ω) w n p).getD i 0) (volume.restrict (Set.Icc 0 1)) P := by
  have key : ∀ g, HasLaw (fun ω => ((R ω).uniform n g).1.getD i 0) (volume.restrict (Set.Icc 0 1)) P := by
    intro g
    obtain ⟨N, h1, h2⟩ := hR.uniform n g
    have : (fun ω => ((R ω).uniform n g).1.getD i 0) = N i := by
      funext ω
      rw [h1]; simp [hi]
    rw [this]; exact h2 i
  cases p <;> exact key _

/-- A value with scatter that is switched on by another random number. -/
theorem both_mean (N U : Ω → ℝ) (hN : HasLaw N (gaussianReal 0 1) P)
    (hU : HasLaw U (volume.restrict (Set.Icc 0 1)) P) (hi : IndepFun N U P) (x s q : ℝ) (hq : Fraction q) :
    Integrable (fun ω => if q < U ω then 0 else x * 10 ^ (s * N ω)) P ∧
      ∫ ω, (if q < U ω then 0 else x * 10 ^ (s * N ω)) ∂P = q * x * 10 ^ (s ^ 2 * Real.log 10 / 2) := by
  obtain ⟨a1, a2⟩ := Gal.scatter_mean N hN x s
  obtain ⟨b1, b2⟩ := (Gal.duty_mean U hU 1 q hq).2
  have e : (fun ω => if q < U ω then 0 else x * (10 : ℝ) ^ (s * N ω)) =
      (fun ω => x * (10 : ℝ) ^ (s * N ω)) * (fun ω => if q < U ω then 0 else 1) := by
    funext ω
    simp only [Pi.mul_apply]
    split <;> simp
  have hind : IndepFun (fun ω => x * (10 : ℝ) ^ (s * N ω)) (fun ω => if q < U ω then (0 : ℝ) else 1) P := by
    have m1 : Measurable (fun t : ℝ => x * (10 : ℝ) ^ (s * t)) := by
      have : (fun t : ℝ => x * (10 : ℝ) ^ (s * t)) = fun t => x * Real.exp (Real.log 10 * (s * t)) := by
        funext t; rw [Gal.pow_ten]
      rw [this]
      exact ((Real.continuous_exp.comp (continuous_const.mul (continuous_const.mul continuous_id))).measurable).const_mul x
    have m2 : Measurable (fun t : ℝ => if q < t then (0 : ℝ) else 1) :=
      Measurable.ite measurableSet_Ioi measurable_const measurable_const
    exact hi.comp m1 m2
  rw [e]
  refine ⟨hind.integrable_mul a1 b1, ?_⟩
  rw [hind.integral_mul_eq_mul_integral a1.aestronglyMeasurable b1.aestronglyMeasurable, a2, b2]
  ring

/-- The mean of the value of one halo. -/
theorem value_mean (hR : Random P R) (hS : Separate P R) (E : Env ℝ) (erf : ℝ → ℝ) (hE : E.fn = realFn erf)
    (w : World G) (n : ℕ) (p : Which) (mass sfr redshift : List ℝ) (i : ℕ) (hi : i < n)
    (hq : Fraction (switchedOn E (mass.getD i 0) (redshift.getD i 0) p)) :
    Integrable (fun ω => value E p (halo (R ω) w n p mass sfr redshift i)) P ∧
      ∫ ω, value E p (halo (R ω) w n p mass sfr redshift i) ∂P =
        onAverage E p (mass.getD i 0) (sfr.getD i 0) (redshift.getD i 0) := by
  have hN := normals_random hR w n p i hi
  have hU := uniforms_random hR w n p i hi
  have hP : IsProbabilityMeasure P := hN.isProbabilityMeasure
  obtain ⟨fn, age, yang, setUp, st, mt⟩ := E
  simp only at hE
  subst hE
  have d := fun x s => Gal.scatter_mean _ hN x s
  have k := fun x s => Gal.scatter_mean_kept _ hN x s
  have one : ∀ x : ℝ, 1 * x * (10 : ℝ) ^ ((0 : ℝ) ^ 2 * Real.log 10 / 2) = x := by intro x; norm_num
  cases p with
  | coSled => simp [value, onAverage, published]
  | liCo =>
    obtain ⟨a, b⟩ := k (10 ^ ((lg (sfr.getD i 0 * 10 ^ 10) + 174 / 100) / (137 / 100)) * (49 / 10 ^ 6)) (3 / 10)
    refine ⟨a, b.trans ?_⟩
    simp only [onAverage, published, switchedOn, medianScatter, one]
    norm_num [mul_comm]
  | gaoHcn =>
    obtain ⟨a, b⟩ := k (10 ^ (lg (sfr.getD i 0 * 10 ^ 10) - 29 / 10) * (22 / 10 ^ 6)) (3 / 10)
    refine ⟨a, b.trans ?_⟩
    simp only [onAverage, published, switchedOn, medianScatter, one]
    norm_num [mul_comm]
  | behrooziSfr =>
    obtain ⟨a, b⟩ := k (st (redshift.getD i 0) (mass.getD i 0)) (3 / 10)
    refine ⟨a, b.trans ?_⟩
    simp only [onAverage, published, switchedOn, medianScatter, one]
  | behrooziMass =>
    obtain ⟨a, b⟩ := k (mt (redshift.getD i 0) (mass.getD i 0)) (3 / 10)
    refine ⟨a, b.trans ?_⟩
    simp only [onAverage, published, switchedOn, medianScatter, one]
  | lidzCo =>
    obtain ⟨a, b⟩ := (Gal.duty_mean _ hU (2800 * (mass.getD i 0 / 10 ^ 8)) (1 / 10) (by
      constructor <;> norm_num)).1
    refine ⟨a, b.trans ?_⟩
    simp only [onAverage, published, switchedOn, medianScatter]
    norm_num
    ring
  | breysseHcn =>
    obtain ⟨a, b⟩ := (Gal.duty_mean _ hU (17 / 10 ^ 16 * mass.getD i 0 ^ ((167 : ℝ) / 100)) (1 / 10) (by
      constructor <;> norm_num)).1
    refine ⟨a, b.trans ?_⟩
    simp only [onAverage, published, switchedOn, medianScatter]
    norm_num
    ring
  | pullenCo =>
    simp only [switchedOn] at hq
    rw [show (0.1 : ℝ) = 1 / 10 by norm_num] at hq
    obtain ⟨a, b⟩ := (Gal.duty_mean _ hU (10 ^ 6 * mass.getD i 0 / (5 * 10 ^ 11)) _ hq).2
    refine ⟨a, b.trans ?_⟩
    simp only [onAverage, published, switchedOn, medianScatter]
    rw [show (0.1 : ℝ) = 1 / 10 by norm_num, show ((0 : ℝ) ^ 2 * Real.log 10 / 2) = 0 by norm_num, Real.rpow_zero,
      mul_one, mul_comm]
  | padmanabhanCii =>
    simp only [value, halo, onAverage, published, switchedOn, medianScatter, one, realFn]
    refine ⟨integrable_const _, ?_⟩
    rw [integral_const, probReal_univ, one_smul]
    norm_num
  | keatingCo =>
    simp only [value, halo, onAverage, published, switchedOn, medianScatter, dex]
    by_cases hm : mass.getD i 0 < 10 ^ 10
    · simp only [hm, if_true]
      simp
    · simp only [hm, if_false]
      obtain ⟨a, b⟩ := d (63 / 10 ^ 8 * mass.getD i 0) (3 / 10)
      refine ⟨a, b.trans ?_⟩
      norm_num
  | deloozeFir =>
    obtain ⟨a, b⟩ := d (10 ^ ((lg (sfr.getD i 0) + 699 / 100) / (101 / 100))) (42 / 100)
    refine ⟨a, b.trans ?_⟩
    simp only [onAverage, published, switchedOn, medianScatter, one_mul]
    norm_num
  | uzgilFir =>
    obtain ⟨a, b⟩ := d (10 ^ (89 / 100 * lg (sfr.getD i 0 * 10 ^ 10 * sun) - 244 / 100) / sun) (4 / 10)
    refine ⟨a, b.trans ?_⟩
    simp only [onAverage, published, switchedOn, medianScatter, one_mul, mul_comm (sfr.getD i 0)]
    norm_num
  | spinoglioFir =>
    obtain ⟨a, b⟩ := d (10 ^ (89 / 100 * lg (sfr.getD i 0 * 10 ^ 10 * sun) - 267 / 100) / sun) (4 / 10)
    refine ⟨a, b.trans ?_⟩
    simp only [onAverage, published, switchedOn, medianScatter, one_mul, mul_comm (sfr.getD i 0)]
    norm_num
  | schaererCii =>
    obtain ⟨a, b⟩ := d (10 ^ (117 / 100 * lg (sfr.getD i 0) + 661 / 100)) (4 / 10)
    refine ⟨a, b.trans ?_⟩
    simp only [onAverage, published, switchedOn, medianScatter, one_mul]
    norm_num
  | zhaoNii =>
    obtain ⟨a, b⟩ := d (10 ^ ((lg (sfr.getD i 0 * 10 ^ 10) - 451 / 100) / (95 / 100))) (4 / 10)
    refine ⟨a, b.trans ?_⟩
    simp only [onAverage, published, switchedOn, medianScatter, one_mul, mul_comm (sfr.getD i 0)]
    norm_num
  | yangCii =>
    have hI : IndepFun (fun ω => (normals (R ω) w n .yangCii).getD i 0)
        (fun ω => (uniforms (R ω) w n .yangCii).getD i 0) P := hS n w.own w.glob i
    obtain ⟨m, hm⟩ : ∃ m, m = mass.getD i 0 := ⟨_, rfl⟩
    obtain ⟨z, hz⟩ : ∃ z, z = redshift.getD i 0 := ⟨_, rfl⟩
    rw [← hm, ← hz] at hq
    obtain ⟨a, b⟩ := both_mean _ _ hN hU hI (2 * 10 ^ (yang "CII" z).n * m *
      ((m / 10 ^ (yang "CII" z).m1) ^ (-(yang "CII" z).a) + (m / 10 ^ (yang "CII" z).m1) ^ (yang "CII" z).b)⁻¹)
      (yang "CII" z).sig _ hq
    have e : ∀ ω, value ⟨realFn erf, age, yang, setUp, st, mt⟩ .yangCii (halo (R ω) w n .yangCii mass sfr redshift i) =
        if switchedOn ⟨realFn erf, age, yang, setUp, st, mt⟩ m z .yangCii <
          (uniforms (R ω) w n .yangCii).getD i 0 then 0 else
        2 * 10 ^ (yang "CII" z).n * m *
          ((m / 10 ^ (yang "CII" z).m1) ^ (-(yang "CII" z).a) +
            (m / 10 ^ (yang "CII" z).m1) ^ (yang "CII" z).b)⁻¹ *
          10 ^ ((yang "CII" z).sig * (normals (R ω) w n .yangCii).getD i 0) := by
      intro ω
      simp only [value, halo, ← hm, ← hz, dex, switchedOn, one_div, realFn]
      norm_num
    simp only [e]
    refine ⟨a, b.trans ?_⟩
    simp only [onAverage, published, medianScatter, ← hm, ← hz, div_eq_mul_inv]

/-- The fractions of halos that are switched on are fractions. -/
theorem fraction_of (E : Env ℝ) (p : Which) (s : State ℝ) (u : Bool) (remap : PyDict Name Name) (n : ℕ)
    (mass sfr redshift : List ℝ) (hi : Inputs s u remap n p mass sfr redshift)
    (hage : p = .pullenCo → ∀ z ∈ redshift, 0 < E.age z) (hmass : p = .yangCii → ∀ m ∈ mass, 0 ≤ m) (j : ℕ)
    (hjn : j < n) : Fraction (switchedOn E (mass.getD j 0) (redshift.getD j 0) p) := by
  cases p with
  | lidzCo => constructor <;> norm_num [switchedOn]
  | breysseHcn => constructor <;> norm_num [switchedOn]
  | pullenCo =>
    have hl : redshift.length = n := by
      rcases hi.redshift (by decide) with h | h
      · exact h.1
      · obtain ⟨-, x, -, hx⟩ := h
        rw [hx, List.length_replicate]
    have hz := hage rfl (redshift.getD j 0) (by
      rw [List.getD_eq_getElem?_getD, List.getElem?_eq_getElem (by omega)]
      exact List.getElem_mem _)
    simp only [switchedOn]
    exact ⟨le_min (div_nonneg (by norm_num) hz.le) zero_le_one, min_le_right _ _⟩
  | yangCii =>
    have hl : mass.length = n := (hi.mass (by decide)).1
    have hz := hmass rfl (mass.getD j 0) (by
      rw [List.getD_eq_getElem?_getD, List.getElem?_eq_getElem (by omega)]
      exact List.getElem_mem _)
    simp only [switchedOn]
    split
    · have : 0 ≤ (mass.getD j 0 / 10 ^ (11.73 + 0.6634 * redshift.getD j 0)) ^
          (1.37 - 0.19 * redshift.getD j 0 + 0.0215 * redshift.getD j 0 ^ 2) :=
        Real.rpow_nonneg (div_nonneg hz (Real.rpow_nonneg (by norm_num) _)) _
      constructor
      · positivity
      · rw [div_le_one (by positivity)]; linarith
    · exact ⟨zero_le_one, le_rfl⟩
  | _ => exact ⟨zero_le_one, le_rfl⟩

/-- C143. The total of a ready-made property over any of the selected halos of a snapshot or lightcone is, on
average over the random numbers, that of the published relation: times the fraction of halos that are switched
on, and times a factor that depends on the scatter where the relation is that of the median. -/
theorem C143_total (hR : Random P R) (hS : Separate P R) (E : Env ℝ) (erf : ℝ → ℝ) (hE : E.fn = realFn erf)
    (w : World G) (p : Which) (hp : p ≠ .coSled)
    (hset : p = .behrooziSfr ∨ p = .behrooziMass → E.setUp = true)
    (s : State ℝ) (hr : Handler.Spec.Reachable s) (o : MakeOpts ℝ) (hdisk : o.writeDisk = false)
    (hkw : o.otherKws = []) (name : Name) (hn : o.rename = some [name] ∨ o.rename = none ∧ name = (label p).1)
    (hmc : name ≠ "mass_cuts") (hfree : o.overwrite = true ∨ hasProperty s name = false)
    (mass sfr redshift : List ℝ)
    (hi : Inputs s o.useAll o.remap (Handler.Spec.selection s o.useAll).length p mass sfr redshift)
    (hpul : p = .pullenCo → (Handler.Spec.selection s o.useAll).length ≤ 100 ∨ ∃ z0, ∀ z ∈ redshift, z = z0)
    (hage : p = .pullenCo → ∀ z ∈ redshift, 0 < E.age z) (hmass : p = .yangCii → ∀ m ∈ mass, 0 ≤ m) :
    ∃ (s' : Ω → State ℝ) (col : Ω → List (Option ℝ)),
      (∀ ω, ∃ m, prop E (R ω) w p = .ok m ∧ make s m o = (s' ω, .ok ()) ∧
        ∀ b, returnProperty (s' ω) name true b = .ok (some (col ω))) ∧
      ∀ S : Finset ℕ, (∀ j ∈ S, j < (Handler.Spec.selection s o.useAll).length) →
        ∫ ω, ∑ j ∈ S, shown (col ω) ((Handler.Spec.selection s o.useAll).getD j 0) ∂P =
          ∑ j ∈ S, onAverage E p (mass.getD j 0) (sfr.getD j 0) (redshift.getD j 0) := by
  have hmk := fun ω => C110_make E (R ω) (hR.lawful ω) w p hp hset s hr o hdisk hkw name hn hmc hfree mass sfr
    redshift hi hpul
  choose m s' h1 h2 h3 h4 h5 using hmk
  choose col c1 c2 c3 c4 using h4
  refine ⟨s', col, fun ω => ⟨m ω, h1 ω, h2 ω, c1 ω⟩, ?_⟩
  intro S hSj
  obtain ⟨n, hnn⟩ : ∃ n, n = (Handler.Spec.selection s o.useAll).length := ⟨_, rfl⟩
  rw [← hnn] at hSj hi hpul
  have hval : ∀ ω, ∀ j ∈ S, shown (col ω) ((Handler.Spec.selection s o.useAll).getD j 0) =
      value E p (halo (R ω) w n p mass sfr redshift j) := by
    intro ω j hj
    have hjn := hSj j hj
    have hjs : (Handler.Spec.selection s o.useAll)[j]? =
        some ((Handler.Spec.selection s o.useAll).getD j 0) := by
      rw [List.getD_eq_getElem?_getD, List.getElem?_eq_getElem (by omega)]
      rfl
    have := c3 ω j _ hjs
    unfold shown
    rw [List.getD_eq_getElem?_getD, this, ← hnn]
    rfl
  have key := fun j (hj : j ∈ S) => value_mean hR hS E erf hE w n p mass sfr redshift j (hSj j hj)
    (fraction_of E p s o.useAll o.remap n mass sfr redshift hi hage hmass j (hSj j hj))
  have e : ∀ ω, ∑ j ∈ S, shown (col ω) ((Handler.Spec.selection s o.useAll).getD j 0) =
      ∑ j ∈ S, value E p (halo (R ω) w n p mass sfr redshift j) :=
    fun ω => Finset.sum_congr rfl (hval ω)
  simp only [e]
  rw [integral_finsetSum _ (fun j hj => (key j hj).1)]
  exact Finset.sum_congr rfl (fun j hj => (key j hj).2)

/-! ## Example -/

theorem streams_separate : Separate Gal.chance Gal.streams := by
  intro n g g' i
  have m2 : ∀ g, Measurable (fun f : ℕ → ℝ => ((List.range n).map (fun j => f (g + j))).getD i 0) := by
    intro g
    by_cases hi : i < n
    · have : (fun f : ℕ → ℝ => ((List.range n).map (fun j => f (g + j))).getD i 0) = fun f => f (g + i) := by
        funext f; simp [hi]
      rw [this]; exact measurable_pi_apply _
    · have : (fun f : ℕ → ℝ => ((List.range n).map (fun j => f (g + j))).getD i 0) = fun _ => 0 := by
        funext f; simp [hi]
      rw [this]; exact measurable_const
  unfold Gal.chance
  exact indepFun_prod (m2 g) (m2 g')

/-- A snapshot with two halos at redshift 1. -/
noncomputable def realFile : PyDict Name (Handler.Dataset ℝ) :=
  [("mass", ⟨[some (10 ^ 11), some (10 ^ 12)], some "Msun/h", some (-1), false⟩),
   ("sfr", ⟨[some 1, some 20], some "Msun/yr", some 0, false⟩)]

noncomputable def realState : State ℝ where
  file := realFile
  h := 1 / 2
  all := ["mass", "sfr"]
  units := [("mass", "Msun/h"), ("sfr", "Msun/yr")]
  hdep := [("mass", -1), ("sfr", 0)]
  saved := ["mass", "sfr"]
  nAll := 2
  loaded := []
  generated := []
  active := [0, 1]
  nActive := 2
  inH := false
  extra := [("redshift", 1), ("cosmo", 0)]

theorem realReachable : Handler.Spec.Reachable realState := by
  refine ⟨realFile, 2, 1 / 2, false, _, [("redshift", 1), ("cosmo", 0)], [], ?_, rfl, rfl⟩
  refine ⟨by decide, ⟨_, rfl, rfl⟩, ?_, ?_, ?_⟩
  · intro p d h hp
    simp only [realFile, PyDict.get?_cons] at h
    split at h
    · cases h; rfl
    · split at h
      · cases h; rfl
      · simp [PyDict.get?] at h
  · intro p d h hp
    simp only [realFile, List.mem_cons, List.not_mem_nil, or_false, Prod.mk.injEq] at h
    rcases h with ⟨-, rfl⟩ | ⟨-, rfl⟩ <;> rfl
  · intro p d h hp
    simp only [realFile, List.mem_cons, List.not_mem_nil, or_false, Prod.mk.injEq] at h
    rcases h with ⟨-, rfl⟩ | ⟨-, rfl⟩ <;> rfl

theorem realInputs (p : Which) :
    Inputs realState false [] 2 p [2 * 10 ^ 11, 2 * 10 ^ 12] [1, 20] (List.replicate 2 1) where
  rate := fun _ => ⟨rfl, rfl, by
    show Except.ok (some (Handler.scaleH (1 / 2 : ℝ) 0 [some 1, some 20])) = _
    simp [Handler.scaleH]⟩
  mass := fun _ => ⟨rfl, rfl, by
    show Except.ok (some (Handler.scaleH (1 / 2 : ℝ) (-1) [some (10 ^ 11), some (10 ^ 12)])) = _
    norm_num [Handler.scaleH]⟩
  redshift := fun _ => .inr ⟨by decide, 1, rfl, rfl⟩
  cosmo := fun _ => ⟨_, by decide, 0, rfl, rfl⟩

/-- Every ready-made property but the ladder, for this snapshot: the total of both halos on average. -/
example (p : Which) (hp : p ≠ .coSled) (erf : ℝ → ℝ) (w : World ℕ) (E : Env ℝ) (hE : E.fn = realFn erf)
    (hset : E.setUp = true) (hage : 0 < E.age 1) :
    ∃ (s' : (ℕ → ℝ) × (ℕ → ℝ) → State ℝ) (col : (ℕ → ℝ) × (ℕ → ℝ) → List (Option ℝ)),
      (∀ ω, ∃ m, prop E (Gal.streams ω) w p = .ok m ∧
        make realState m ⟨none, [], [], true, false, false, false, false⟩ = (s' ω, .ok ()) ∧
        ∀ b, returnProperty (s' ω) (label p).1 true b = .ok (some (col ω))) ∧
      ∫ ω, (shown (col ω) 0 + shown (col ω) 1) ∂Gal.chance =
        onAverage E p (2 * 10 ^ 11) 1 1 + onAverage E p (2 * 10 ^ 12) 20 1 := by
  obtain ⟨s', col, h1, h2⟩ := C143_total Gal.streams_random streams_separate E erf hE w p hp (fun _ => hset)
    realState realReachable ⟨none, [], [], true, false, false, false, false⟩ rfl rfl (label p).1 (.inr ⟨rfl, rfl⟩)
    (by cases p <;> decide) (.inl rfl) _ _ _ (realInputs p) (fun _ => .inl (by decide))
    (fun _ z hz => by
      rw [List.mem_replicate] at hz
      rw [hz.2]; exact hage)
    (fun _ m hm => by
      simp only [List.mem_cons, List.not_mem_nil, or_false] at hm
      rcases hm with rfl | rfl <;> norm_num)
  refine ⟨s', col, h1, ?_⟩
  have := h2 (Finset.range 2) (fun j hj => Finset.mem_range.1 hj)
  simp only [Finset.sum_range_succ, Finset.sum_range_zero, zero_add] at this
  exact this

end Verif.Ready
