import Verif.Spec.ReadySpread
import Verif.Props.ReadyMap
import Verif.Props.GalFractions

/-!
# C145: how much totals of ready-made properties vary
-/

set_option linter.unusedSectionVars false

namespace Verif.Ready

open Verif.Gal (Fn Rng World realFn)
open Verif.Gal.Spec (Random Fraction)
open Verif.Handler (Name V State MakeOpts hasProperty returnProperty make)
open Verif.Map Verif.Map.Spec
open Verif.HGrid (lcGrid)
open Verif.HGrid.Spec
open MeasureTheory ProbabilityTheory
open Spec

/-! ## One halo -/

/-- Always on, on below `q`, or off above `q`. -/
noncomputable def switch : Option Bool → ℝ → ℝ → ℝ
  | none, _, _ => 1
  | some true, q, u => if u < q then 1 else 0
  | some false, q, u => if q < u then 0 else 1

/-- The values of all properties have the same form. -/
structure Form (E : Env ℝ) (p : Which) (m r z X s q : ℝ) (mode : Option Bool) : Prop where
  mean : q * X * 10 ^ (s ^ 2 * Real.log 10 / 2) = onAverage E p m r z
  square : q * X ^ 2 * 10 ^ ((2 * s) ^ 2 * Real.log 10 / 2) = squareOnAverage E p m r z
  on : mode = none → q = 1
  val : ∀ N U, value E p ⟨m, r, z, N, U⟩ = switch mode q U * (X * 10 ^ (s * N))

theorem form_kept (E : Env ℝ) (p : Which) (m r z Y : ℝ) (h1 : switchedOn E m z p = 1)
    (h2 : medianScatter E z p = 0) (h3 : keepsMean p = true) (hY : Y = published E m r z p)
    (hval : ∀ N U, value E p ⟨m, r, z, N, U⟩ =
      Y / 10 ^ ((3 / 10 : ℝ) ^ 2 * Real.log 10 / 2) * 10 ^ (3 / 10 * N)) :
    Form E p m r z (Y / 10 ^ ((3 / 10 : ℝ) ^ 2 * Real.log 10 / 2)) (3 / 10) 1 none where
  mean := by
    have : (0 : ℝ) < 10 ^ ((3 / 10 : ℝ) ^ 2 * Real.log 10 / 2) := Real.rpow_pos_of_pos (by norm_num) _
    unfold onAverage
    rw [h1, h2, hY, show ((0 : ℝ) ^ 2 * Real.log 10 / 2) = 0 by norm_num, Real.rpow_zero]
    field_simp
  square := by
    unfold squareOnAverage scatter
    rw [h1, h3, hY, if_pos rfl, if_pos rfl, div_pow, ← Real.rpow_natCast (10 ^ _), ← Real.rpow_mul (by norm_num),
      one_mul, one_mul, one_mul, div_mul_eq_mul_div, mul_div_assoc, ← Real.rpow_sub (by norm_num)]
    congr 2
    push_cast
    norm_num
    ring
  on := fun _ => rfl
  val := by intro N U; rw [hval]; simp [switch]

theorem form_median (E : Env ℝ) (p : Which) (m r z X s q : ℝ) (mode : Option Bool)
    (h1 : switchedOn E m z p = q) (h2 : medianScatter E z p = s) (h3 : keepsMean p = false)
    (hX : X = published E m r z p) (hon : mode = none → q = 1)
    (hval : ∀ N U, value E p ⟨m, r, z, N, U⟩ = switch mode q U * (X * 10 ^ (s * N))) :
    Form E p m r z X s q mode where
  mean := by unfold onAverage; rw [h1, h2, hX]
  square := by
    unfold squareOnAverage scatter
    rw [h1, h3, hX, if_neg (by simp), if_neg (by simp), h2]
    congr 2
    ring
  on := hon
  val := hval

theorem forms (E : Env ℝ) (erf : ℝ → ℝ) (hE : E.fn = realFn erf) (p : Which) (m r z : ℝ) :
    ∃ X s mode, Form E p m r z X s (switchedOn E m z p) mode := by
  obtain ⟨fn, age, yang, setUp, st, mt⟩ := E
  simp only at hE
  subst hE
  cases p with
  | coSled => exact ⟨0, 0, none, form_median _ _ _ _ _ _ _ _ _ rfl rfl rfl rfl (fun _ => rfl) (by simp [value])⟩
  | liCo =>
    refine ⟨_, _, none, form_kept _ _ _ _ _
      (10 ^ ((lg (r * 10 ^ 10) + 174 / 100) / (137 / 100)) * (49 / 10 ^ 6)) rfl rfl rfl ?_ (fun _ _ => rfl)⟩
    simp only [published]
    norm_num [mul_comm]
  | gaoHcn =>
    refine ⟨_, _, none, form_kept _ _ _ _ _
      (10 ^ (lg (r * 10 ^ 10) - 29 / 10) * (22 / 10 ^ 6)) rfl rfl rfl ?_ (fun _ _ => rfl)⟩
    simp only [published]
    norm_num [mul_comm]
  | behrooziSfr => exact ⟨_, _, none, form_kept _ _ _ _ _ (st z m) rfl rfl rfl rfl (fun _ _ => rfl)⟩
  | behrooziMass => exact ⟨_, _, none, form_kept _ _ _ _ _ (mt z m) rfl rfl rfl rfl (fun _ _ => rfl)⟩
  | lidzCo =>
    refine ⟨2800 * (m / 10 ^ 8), 0, some true, form_median _ _ _ _ _ _ _ _ _ rfl rfl rfl rfl (by simp) ?_⟩
    intro N U
    simp only [value, switch, switchedOn]
    norm_num
  | breysseHcn =>
    refine ⟨17 / 10 ^ 16 * m ^ ((167 : ℝ) / 100), 0, some true,
      form_median _ _ _ _ _ _ _ _ _ rfl rfl rfl (by simp only [published]; norm_num) (by simp) ?_⟩
    intro N U
    simp only [value, switch, switchedOn, realFn]
    norm_num
  | pullenCo =>
    refine ⟨10 ^ 6 * m / (5 * 10 ^ 11), 0, some false, form_median _ _ _ _ _ _ _ _ _ rfl rfl rfl rfl (by simp) ?_⟩
    intro N U
    have hq : switchedOn ⟨realFn erf, age, yang, setUp, st, mt⟩ m z .pullenCo = min (1 / 10 / age z) 1 := by
      simp only [switchedOn]; norm_num
    rw [hq]
    simp only [value, switch]
    split <;> simp
  | padmanabhanCii =>
    refine ⟨_, 0, none, form_median _ _ _ _ _ _ _ _ _ rfl rfl rfl rfl (fun _ => rfl) ?_⟩
    intro N U
    simp only [value, switch, published, realFn]
    norm_num
  | keatingCo =>
    refine ⟨_, 3 / 10, none, form_median _ _ _ _ _ _ _ _ _ rfl (by simp only [medianScatter]; norm_num) rfl rfl
      (fun _ => rfl) ?_⟩
    intro N U
    simp only [value, switch, published, dex, realFn]
    split
    · simp
    · norm_num
  | deloozeFir =>
    refine ⟨10 ^ ((lg r + 699 / 100) / (101 / 100)), 42 / 100, none, form_median _ _ _ _ _ _ _ _ _ rfl
      (by simp only [medianScatter]; norm_num) rfl (by simp only [published]; norm_num) (fun _ => rfl) ?_⟩
    intro N U
    simp only [switch, one_mul]
    rfl
  | uzgilFir =>
    refine ⟨10 ^ (89 / 100 * lg (r * 10 ^ 10 * sun) - 244 / 100) / sun, 4 / 10, none, form_median _ _ _ _ _ _ _ _ _ rfl
      (by simp only [medianScatter]; norm_num) rfl (by simp only [published, mul_comm r]; norm_num) (fun _ => rfl) ?_⟩
    intro N U
    simp only [switch, one_mul]
    rfl
  | spinoglioFir =>
    refine ⟨10 ^ (89 / 100 * lg (r * 10 ^ 10 * sun) - 267 / 100) / sun, 4 / 10, none, form_median _ _ _ _ _ _ _ _ _ rfl
      (by simp only [medianScatter]; norm_num) rfl (by simp only [published, mul_comm r]; norm_num) (fun _ => rfl) ?_⟩
    intro N U
    simp only [switch, one_mul]
    rfl
  | schaererCii =>
    refine ⟨10 ^ (117 / 100 * lg r + 661 / 100), 4 / 10, none, form_median _ _ _ _ _ _ _ _ _ rfl
      (by simp only [medianScatter]; norm_num) rfl (by simp only [published]; norm_num) (fun _ => rfl) ?_⟩
    intro N U
    simp only [switch, one_mul]
    rfl
  | zhaoNii =>
    refine ⟨10 ^ ((lg (r * 10 ^ 10) - 451 / 100) / (95 / 100)), 4 / 10, none, form_median _ _ _ _ _ _ _ _ _ rfl
      (by simp only [medianScatter]; norm_num) rfl (by simp only [published, mul_comm r]; norm_num) (fun _ => rfl) ?_⟩
    intro N U
    simp only [switch, one_mul]
    rfl
  | yangCii =>
    refine ⟨_, _, some false, form_median _ _ _ _ _ _ _ _ _ rfl rfl rfl rfl (by simp) ?_⟩
    intro N U
    simp only [value, switch, switchedOn, published, medianScatter, dex, realFn, one_div, div_eq_mul_inv]
    norm_num

section
variable {Ω G : Type} [MeasurableSpace Ω] {P : Measure Ω} {R : Ω → Rng ℝ G}

theorem ten_measurable (x s : ℝ) : Measurable (fun t : ℝ => x * (10 : ℝ) ^ (s * t)) := by
  have : (fun t : ℝ => x * (10 : ℝ) ^ (s * t)) = fun t => x * Real.exp (Real.log 10 * (s * t)) := by
    funext t; rw [Gal.pow_ten]
  rw [this]
  exact ((Real.continuous_exp.comp (continuous_const.mul (continuous_const.mul continuous_id))).measurable).const_mul x

theorem switch_measurable (mode : Option Bool) (q : ℝ) : Measurable (switch mode q) := by
  match mode with
  | none => exact measurable_const
  | some true => exact Measurable.ite measurableSet_Iio measurable_const measurable_const
  | some false => exact Measurable.ite measurableSet_Ioi measurable_const measurable_const

theorem switch_mean (U : Ω → ℝ) (hU : HasLaw U (volume.restrict (Set.Icc 0 1)) P) (mode : Option Bool) (q : ℝ)
    (hq : Fraction q) (hon : mode = none → q = 1) :
    Integrable (fun ω => switch mode q (U ω)) P ∧ ∫ ω, switch mode q (U ω) ∂P = q := by
  have hP : IsProbabilityMeasure P := by
    have : IsProbabilityMeasure (volume.restrict (Set.Icc (0 : ℝ) 1)) := ⟨by simp [Measure.restrict_apply]⟩
    exact hU.isProbabilityMeasure
  obtain ⟨⟨a1, a2⟩, b1, b2⟩ := Gal.duty_mean U hU 1 q hq
  match mode, hon with
  | none, hon =>
    rw [hon rfl]
    refine ⟨integrable_const _, ?_⟩
    simp [switch]
  | some true, _ => exact ⟨a1, a2.trans (one_mul q)⟩
  | some false, _ => exact ⟨b1, b2.trans (one_mul q)⟩

theorem form_mean (N U : Ω → ℝ) (hN : HasLaw N (gaussianReal 0 1) P)
    (hU : HasLaw U (volume.restrict (Set.Icc 0 1)) P) (hi : IndepFun N U P) (x s q : ℝ) (mode : Option Bool)
    (hq : Fraction q) (hon : mode = none → q = 1) :
    Integrable (fun ω => switch mode q (U ω) * (x * 10 ^ (s * N ω))) P ∧
      ∫ ω, switch mode q (U ω) * (x * 10 ^ (s * N ω)) ∂P = q * x * 10 ^ (s ^ 2 * Real.log 10 / 2) := by
  obtain ⟨a1, a2⟩ := Gal.scatter_mean N hN x s
  obtain ⟨b1, b2⟩ := switch_mean U hU mode q hq hon
  have hind : IndepFun (fun ω => switch mode q (U ω)) (fun ω => x * (10 : ℝ) ^ (s * N ω)) P :=
    hi.symm.comp (switch_measurable mode q) (ten_measurable x s)
  refine ⟨hind.integrable_mul b1 a1, ?_⟩
  have := hind.integral_mul_eq_mul_integral b1.aestronglyMeasurable a1.aestronglyMeasurable
  refine this.trans ?_
  rw [a2, b2]
  ring

theorem switch_sq (mode : Option Bool) (q u : ℝ) : switch mode q u ^ 2 = switch mode q u := by
  match mode with
  | none => simp [switch]
  | some true => simp only [switch]; split <;> simp
  | some false => simp only [switch]; split <;> simp

/-- The state of the generator of the normal numbers. -/
def ofNormals (w : World G) : Which → G
  | .behrooziSfr | .behrooziMass => w.deflt
  | _ => w.own

/-- The state of the generator of the even numbers. -/
def ofUniforms (w : World G) : Which → G
  | .yangCii => w.glob
  | _ => w.own

theorem normals_eq (Q : Rng ℝ G) (w : World G) (n : ℕ) (p : Which) :
    normals Q w n p = (Q.normal n (ofNormals w p)).1 := by cases p <;> rfl

theorem uniforms_eq (Q : Rng ℝ G) (w : World G) (n : ℕ) (p : Which) :
    uniforms Q w n p = (Q.uniform n (ofUniforms w p)).1 := by cases p <;> rfl

/-- The variance of the value of one halo. -/
theorem value_variance (hR : Random P R) (hS : Separate P R) (E : Env ℝ) (erf : ℝ → ℝ) (hE : E.fn = realFn erf)
    (w : World G) (n : ℕ) (p : Which) (mass sfr redshift : List ℝ) (i : ℕ) (hi : i < n)
    (hq : Fraction (switchedOn E (mass.getD i 0) (redshift.getD i 0) p)) :
    MemLp (fun ω => value E p (halo (R ω) w n p mass sfr redshift i)) 2 P ∧
      Var[fun ω => value E p (halo (R ω) w n p mass sfr redshift i); P] =
        spread E p (mass.getD i 0) (sfr.getD i 0) (redshift.getD i 0) := by
  have hN := normals_random hR w n p i hi
  have hU := uniforms_random hR w n p i hi
  have hP : IsProbabilityMeasure P := hN.isProbabilityMeasure
  have hI : IndepFun (fun ω => (normals (R ω) w n p).getD i 0) (fun ω => (uniforms (R ω) w n p).getD i 0) P := by
    simp only [normals_eq, uniforms_eq]
    exact hS n _ _ i
  obtain ⟨X, s, mode, hF⟩ := forms E erf hE p (mass.getD i 0) (sfr.getD i 0) (redshift.getD i 0)
  have hv : ∀ ω, value E p (halo (R ω) w n p mass sfr redshift i) =
      switch mode (switchedOn E (mass.getD i 0) (redshift.getD i 0) p) ((uniforms (R ω) w n p).getD i 0) *
        (X * 10 ^ (s * (normals (R ω) w n p).getD i 0)) := fun ω => hF.val _ _
  obtain ⟨a1, a2⟩ := form_mean _ _ hN hU hI X s _ mode hq hF.on
  obtain ⟨b1, b2⟩ := form_mean _ _ hN hU hI (X ^ 2) (2 * s) _ mode hq hF.on
  have hsq : ∀ ω, (switch mode (switchedOn E (mass.getD i 0) (redshift.getD i 0) p)
      ((uniforms (R ω) w n p).getD i 0) * (X * (10 : ℝ) ^ (s * (normals (R ω) w n p).getD i 0))) ^ 2 =
      switch mode (switchedOn E (mass.getD i 0) (redshift.getD i 0) p) ((uniforms (R ω) w n p).getD i 0) *
        (X ^ 2 * (10 : ℝ) ^ (2 * s * (normals (R ω) w n p).getD i 0)) := by
    intro ω
    rw [mul_pow, switch_sq, mul_pow, ← Real.rpow_natCast (10 ^ _), ← Real.rpow_mul (by norm_num)]
    congr 3
    push_cast
    ring
  simp only [hv]
  have hm : MemLp (fun ω => switch mode (switchedOn E (mass.getD i 0) (redshift.getD i 0) p)
      ((uniforms (R ω) w n p).getD i 0) * (X * (10 : ℝ) ^ (s * (normals (R ω) w n p).getD i 0))) 2 P := by
    rw [memLp_two_iff_integrable_sq a1.aestronglyMeasurable]
    simp only [hsq]
    exact b1
  refine ⟨hm, ?_⟩
  rw [variance_eq_sub hm]
  simp only [Pi.pow_apply, hsq]
  rw [b2, a2, hF.mean, hF.square]
  rfl

/-- The values of two halos do not depend on each other. -/
theorem value_indep (hT : Unrelated P R) (E : Env ℝ) (erf : ℝ → ℝ) (hE : E.fn = realFn erf)
    (w : World G) (n : ℕ) (p : Which) (mass sfr redshift : List ℝ) (i j : ℕ) (hi : i < n) (hj : j < n) (hij : i ≠ j) :
    IndepFun (fun ω => value E p (halo (R ω) w n p mass sfr redshift i))
      (fun ω => value E p (halo (R ω) w n p mass sfr redshift j)) P := by
  have key : ∀ i, ∃ φ : ℝ × ℝ → ℝ, Measurable φ ∧ ∀ ω, value E p (halo (R ω) w n p mass sfr redshift i) =
      φ (((R ω).normal n (ofNormals w p)).1.getD i 0, ((R ω).uniform n (ofUniforms w p)).1.getD i 0) := by
    intro i
    obtain ⟨X, s, mode, hF⟩ := forms E erf hE p (mass.getD i 0) (sfr.getD i 0) (redshift.getD i 0)
    refine ⟨fun t => switch mode (switchedOn E (mass.getD i 0) (redshift.getD i 0) p) t.2 * (X * 10 ^ (s * t.1)),
      ((switch_measurable mode _).comp measurable_snd).mul ((ten_measurable X s).comp measurable_fst), fun ω => ?_⟩
    rw [← normals_eq, ← uniforms_eq]
    exact hF.val _ _
  obtain ⟨φ, f1, f2⟩ := key i
  obtain ⟨ψ, g1, g2⟩ := key j
  simp only [f2, g2]
  exact (hT n _ _ i j hi hj hij).comp f1 g1

/-- The variance of a total. -/
theorem total_variance (hR : Random P R) (hS : Separate P R) (hT : Unrelated P R) (E : Env ℝ) (erf : ℝ → ℝ)
    (hE : E.fn = realFn erf) (w : World G) (n : ℕ) (p : Which) (mass sfr redshift : List ℝ) (S : Finset ℕ)
    (hSj : ∀ j ∈ S, j < n) (hq : ∀ j ∈ S, Fraction (switchedOn E (mass.getD j 0) (redshift.getD j 0) p)) :
    Var[fun ω => ∑ j ∈ S, value E p (halo (R ω) w n p mass sfr redshift j); P] =
      ∑ j ∈ S, spread E p (mass.getD j 0) (sfr.getD j 0) (redshift.getD j 0) := by
  have h := IndepFun.variance_sum (μ := P) (s := S)
    (X := fun j ω => value E p (halo (R ω) w n p mass sfr redshift j))
    (fun j hj => (value_variance hR hS E erf hE w n p mass sfr redshift j (hSj j hj) (hq j hj)).1)
    (fun i hi j hj hij => value_indep hT E erf hE w n p mass sfr redshift i j (hSj i hi) (hSj j hj) hij)
  have e : (fun ω => ∑ j ∈ S, value E p (halo (R ω) w n p mass sfr redshift j)) =
      ∑ j ∈ S, fun ω => value E p (halo (R ω) w n p mass sfr redshift j) := by
    funext ω; rw [Finset.sum_apply]
  rw [e, h]
  exact Finset.sum_congr rfl (fun j hj =>
    (value_variance hR hS E erf hE w n p mass sfr redshift j (hSj j hj) (hq j hj)).2)

/-- Sums in cells are sums over the objects in the cells. -/
theorem cellSum_finset (axes : List (List ℝ)) (c : List ℕ) (n : ℕ) (f : ℕ → List ℝ) (v : ℕ → ℝ) :
    cellSum axes c ((List.range n).map (fun j => (f j, v j))) =
      ∑ j ∈ (Finset.range n).filter (fun j => InCell axes c (f j)), v j := by
  induction n with
  | zero => simp [cellSum]
  | succ n ih =>
    have happ : ∀ l l' : List (List ℝ × ℝ), cellSum axes c (l ++ l') = cellSum axes c l + cellSum axes c l' := by
      intro l l'
      simp [cellSum, List.filter_append]
    rw [List.range_succ, List.map_append, happ, ih, Finset.range_add_one, Finset.filter_insert]
    by_cases h : InCell axes c (f n)
    · rw [if_pos h, Finset.sum_insert (by simp), add_comm]
      simp [cellSum, h]
    · rw [if_neg h]
      simp [cellSum, h]

/-- C145. If the random numbers of different halos do not depend on each other, the variance of the total of a
ready-made property over any of the selected halos is the sum of their variances. -/
theorem C145_total (hR : Random P R) (hS : Separate P R) (hT : Unrelated P R) (E : Env ℝ) (erf : ℝ → ℝ)
    (hE : E.fn = realFn erf) (w : World G) (p : Which) (hp : p ≠ .coSled)
    (hset : p = .behrooziSfr ∨ p = .behrooziMass → E.setUp = true)
    (s : State ℝ) (hr : Handler.Spec.Reachable s) (o : MakeOpts ℝ) (hdisk : o.writeDisk = false)
    (hkw : o.otherKws = []) (name : Name) (hn : o.rename = some [name] ∨ o.rename = none ∧ name = (label p).1)
    (hmc : name ≠ "mass_cuts") (hfree : o.overwrite = true ∨ hasProperty s name = false)
    (mass sfr redshift : List ℝ)
    (hi : Inputs s o.useAll o.remap (Handler.Spec.selection s o.useAll).length p mass sfr redshift)
    (hpul : p = .pullenCo → (Handler.Spec.selection s o.useAll).length ≤ 100 ∨ ∃ z0, ∀ z ∈ redshift, z = z0)
    (hage : p = .pullenCo → ∀ z ∈ redshift, 0 < E.age z) (hmass : p = .yangCii → ∀ m ∈ mass, 0 ≤ m) :
    ∃ (s' : Ω → State ℝ) (col : Ω → List (Option ℝ)),
      (∀ ω, ∃ m, prop E (R ω) w p = .ok m ∧ make s m o = (s' ω, .ok ()) ∧
        ∀ b, returnProperty (s' ω) name true b = .ok (some (col ω))) ∧
      ∀ S : Finset ℕ, (∀ j ∈ S, j < (Handler.Spec.selection s o.useAll).length) →
        Var[fun ω => ∑ j ∈ S, shown (col ω) ((Handler.Spec.selection s o.useAll).getD j 0); P] =
          ∑ j ∈ S, spread E p (mass.getD j 0) (sfr.getD j 0) (redshift.getD j 0) := by
  have hmk := fun ω => C110_make E (R ω) (hR.lawful ω) w p hp hset s hr o hdisk hkw name hn hmc hfree mass sfr
    redshift hi hpul
  choose m s' h1 h2 h3 h4 h5 using hmk
  choose col c1 c2 c3 c4 using h4
  refine ⟨s', col, fun ω => ⟨m ω, h1 ω, h2 ω, c1 ω⟩, ?_⟩
  intro S hSj
  have e : ∀ ω, ∑ j ∈ S, shown (col ω) ((Handler.Spec.selection s o.useAll).getD j 0) =
      ∑ j ∈ S, value E p (halo (R ω) w (Handler.Spec.selection s o.useAll).length p mass sfr redshift j) := by
    intro ω
    refine Finset.sum_congr rfl (fun j hj => ?_)
    have hjn := hSj j hj
    have hjs : (Handler.Spec.selection s o.useAll)[j]? =
        some ((Handler.Spec.selection s o.useAll).getD j 0) := by
      rw [List.getD_eq_getElem?_getD, List.getElem?_eq_getElem hjn]
      rfl
    have := c3 ω j _ hjs
    unfold shown
    rw [List.getD_eq_getElem?_getD, this]
    rfl
  simp only [e]
  exact total_variance hR hS hT E erf hE w _ p mass sfr redshift S hSj
    (fun j hj => fraction_of E p s o.useAll o.remap _ mass sfr redshift hi hage hmass j (hSj j hj))

/-- C145. The same for the cells of maps. -/
theorem C145_map (hR : Random P R) (hS : Separate P R) (hT : Unrelated P R) (E : Env ℝ) (erf : ℝ → ℝ)
    (hE : E.fn = realFn erf) (w : World G) (p : Which) (hp : p ≠ .coSled)
    (hset : p = .behrooziSfr ∨ p = .behrooziMass → E.setUp = true)
    (s : State ℝ) (hr : Handler.Spec.Reachable s) (o : MakeOpts ℝ) (hdisk : o.writeDisk = false)
    (hkw : o.otherKws = []) (name : Name) (hn : o.rename = some [name] ∨ o.rename = none ∧ name = (label p).1)
    (hmc : name ≠ "mass_cuts") (hfree : o.overwrite = true ∨ hasProperty s name = false)
    (mass sfr redshift : List ℝ)
    (hi : Inputs s o.useAll o.remap (Handler.Spec.selection s o.useAll).length p mass sfr redshift)
    (hpul : p = .pullenCo → (Handler.Spec.selection s o.useAll).length ≤ 100 ∨ ∃ z0, ∀ z ∈ redshift, z = z0)
    (hage : p = .pullenCo → ∀ z ∈ redshift, 0 < E.age z) (hmass : p = .yangCii → ∀ m ∈ mass, 0 ≤ m)
    (hpos : name ∉ ["ra", "dec", "redshift"]) (inH : Option Bool) (objs : List (List ℝ × List (V ℝ)))
    (hcat : Catalogue s o.useAll inH ["ra", "dec", "redshift"] [] objs) (hne : objs ≠ [])
    (meta' : LCH.Meta ℝ) (freq : Option ℝ)
    (hz : freq ≠ none → ∀ q ∈ objs, ∀ z, q.1[2]? = some z → 1 + z ≠ 0)
    (res ralim declim zlim : Option (NArr ℝ)) (norm : Option ℝ) (a b c d e f wx wy wz : ℝ)
    (h1 : Interval (raDefault meta') ralim a b) (h2 : Interval (decDefault meta') declim c d)
    (h3 : Interval (zDefault meta' freq) zlim e f)
    (hpix : pixels [b - a, d - c, f - e] res = [wx, wy, wz]) (hx : 0 < wx) (hy : 0 < wy) (hw : 0 < wz)
    (hxa : (1 + 1 / 20) * wx < b - a) (hyc : (1 + 1 / 20) * wy < d - c) (hze : (1 + 1 / 20) * wz < f - e) :
    ∃ (s' : Ω → State ℝ) (g : Ω → Grid ℝ (WithTop ℝ)) (t : Ω → Arr (WithTop ℝ)) (nx ny nz : ℕ),
      (b - a - wx / 20 ≤ nx * wx ∧ nx * wx < b - a + 19 / 20 * wx) ∧
      (d - c - wy / 20 ≤ ny * wy ∧ ny * wy < d - c + 19 / 20 * wy) ∧
      (f - e - wz / 20 ≤ nz * wz ∧ nz * wz < f - e + 19 / 20 * wz) ∧
      (∀ ω, (∃ m, prop E (R ω) w p = .ok m ∧ make s m o = (s' ω, .ok ())) ∧
        lcGrid (s' ω) meta' [name] freq inH o.useAll res ralim declim zlim norm = some (.ok (g ω)) ∧
        (g ω).grid = some (t ω) ∧ (g ω).nPix = [nx, ny, nz]) ∧
      ∀ cl : List ℕ, ∃ v : Ω → ℝ, (∀ ω, cell (t ω) cl 0 = ((v ω : ℝ) : WithTop ℝ)) ∧
        Var[v; P] = norm.getD 1 ^ 2 *
          cellSum [edges nx wx ((a + b) / 2), edges ny wy ((c + d) / 2), edges nz wz ((e + f) / 2)] cl
            ((List.range objs.length).map (fun j => ((observed freq (objs.getD j ([], []))).1,
              spread E p (mass.getD j 0) (sfr.getD j 0) (redshift.getD j 0)))) := by
  have hlen : objs.length = (Handler.Spec.selection s o.useAll).length := by
    have h0 := hcat.positions 0 "ra" rfl
    obtain ⟨-, -, -, -, -, -, hl, -⟩ := Handler.returnProperty_inv s (Handler.reachable_inv hr) "ra" o.useAll inH _ h0
    rw [List.length_map] at hl
    rw [hl]; rfl
  obtain ⟨s', g, t, nx, ny, nz, x1, x2, x3, x4, x5⟩ := map_values hR E w p hp hset s hr o hdisk hkw name hn hmc
    hfree mass sfr redshift hi hpul hpos inH objs hcat hne meta' freq hz res ralim declim zlim norm a b c d e f wx wy
    wz h1 h2 h3 hpix hx hy hw hxa hyc hze
  refine ⟨s', g, t, nx, ny, nz, x1, x2, x3, x4, fun cl => ⟨_, x5 cl, ?_⟩⟩
  rw [variance_const_mul]
  congr 1
  simp only [cellSum_finset]
  have hin : ∀ {Q : ℕ → Prop} [DecidablePred Q] j, j ∈ (Finset.range objs.length).filter Q →
      j < (Handler.Spec.selection s o.useAll).length := by
    intro Q _ j hj
    rw [← hlen]
    exact Finset.mem_range.1 (Finset.mem_filter.1 hj).1
  exact total_variance hR hS hT E erf hE w _ p mass sfr redshift _ (fun j hj => hin j hj)
    (fun j hj => fraction_of E p s o.useAll o.remap _ mass sfr redshift hi hage hmass j (hin j hj))

end

/-! ## Examples -/

/-- Pairs of independent numbers from two independent sources. -/
theorem pairs_independent {A B : Type} [MeasurableSpace A] [MeasurableSpace B] (μ : Measure A) (ν : Measure B)
    [IsProbabilityMeasure μ] [IsProbabilityMeasure ν] (X₁ X₂ : A → ℝ) (Y₁ Y₂ : B → ℝ) (m₁ : Measurable X₁)
    (m₂ : Measurable X₂) (n₁ : Measurable Y₁) (n₂ : Measurable Y₂) (hX : IndepFun X₁ X₂ μ) (hY : IndepFun Y₁ Y₂ ν) :
    IndepFun (fun ω : A × B => (X₁ ω.1, Y₁ ω.2)) (fun ω => (X₂ ω.1, Y₂ ω.2)) (μ.prod ν) := by
  rw [indepFun_iff_measure_inter_preimage_eq_mul]
  intro S T hS hT
  have f₁ : Measurable (fun ω : A × B => (X₁ ω.1, Y₁ ω.2)) := by fun_prop
  have f₂ : Measurable (fun ω : A × B => (X₂ ω.1, Y₂ ω.2)) := by fun_prop
  have s1 : ∀ y, MeasurableSet ((fun x : ℝ => (x, y)) ⁻¹' S) := fun y => measurable_prodMk_right hS
  have s2 : ∀ y, MeasurableSet ((fun x : ℝ => (x, y)) ⁻¹' T) := fun y => measurable_prodMk_right hT
  have e1 : ∀ b, μ ((fun a => (a, b)) ⁻¹' ((fun ω : A × B => (X₁ ω.1, Y₁ ω.2)) ⁻¹' S)) =
      (μ.map X₁) ((fun x : ℝ => (x, Y₁ b)) ⁻¹' S) := by
    intro b; rw [Measure.map_apply m₁ (s1 _)]; rfl
  have e2 : ∀ b, μ ((fun a => (a, b)) ⁻¹' ((fun ω : A × B => (X₂ ω.1, Y₂ ω.2)) ⁻¹' T)) =
      (μ.map X₂) ((fun x : ℝ => (x, Y₂ b)) ⁻¹' T) := by
    intro b; rw [Measure.map_apply m₂ (s2 _)]; rfl
  have i1 := Measure.isProbabilityMeasure_map (μ := μ) m₁.aemeasurable
  have i2 := Measure.isProbabilityMeasure_map (μ := μ) m₂.aemeasurable
  have F : Measurable (fun y : ℝ => (μ.map X₁) ((fun x : ℝ => (x, y)) ⁻¹' S)) := measurable_measure_prodMk_right hS
  have H : Measurable (fun y : ℝ => (μ.map X₂) ((fun x : ℝ => (x, y)) ⁻¹' T)) := measurable_measure_prodMk_right hT
  rw [Measure.prod_apply_symm ((f₁ hS).inter (f₂ hT)), Measure.prod_apply_symm (f₁ hS),
    Measure.prod_apply_symm (f₂ hT)]
  simp only [e1, e2]
  have e3 : ∀ b, μ ((fun a => (a, b)) ⁻¹' ((fun ω : A × B => (X₁ ω.1, Y₁ ω.2)) ⁻¹' S ∩
      (fun ω : A × B => (X₂ ω.1, Y₂ ω.2)) ⁻¹' T)) =
      (μ.map X₁) ((fun x : ℝ => (x, Y₁ b)) ⁻¹' S) * (μ.map X₂) ((fun x : ℝ => (x, Y₂ b)) ⁻¹' T) := by
    intro b
    rw [Measure.map_apply m₁ (s1 _), Measure.map_apply m₂ (s2 _)]
    exact (indepFun_iff_measure_inter_preimage_eq_mul.1 hX) _ _ (s1 (Y₁ b)) (s2 (Y₂ b))
  simp only [e3]
  exact lintegral_mul_eq_lintegral_mul_lintegral_of_indepFun (F.comp n₁) (H.comp n₂) (hY.comp F H)

theorem streams_unrelated : Unrelated Gal.chance Gal.streams := by
  intro n g g' i j hi hj hij
  have e : ∀ k < n, (fun ω : (ℕ → ℝ) × (ℕ → ℝ) => (((Gal.streams ω).normal n g).1.getD k 0,
      ((Gal.streams ω).uniform n g').1.getD k 0)) = fun ω => (ω.1 (g + k), ω.2 (g' + k)) := by
    intro k hk
    funext ω
    simp [Gal.streams, hk]
  rw [e i hi, e j hj]
  unfold Gal.chance
  refine pairs_independent _ _ (fun f : ℕ → ℝ => f (g + i)) (fun f : ℕ → ℝ => f (g + j)) (fun f : ℕ → ℝ => f (g' + i)) (fun f : ℕ → ℝ => f (g' + j))
    (measurable_pi_apply _) (measurable_pi_apply _) (measurable_pi_apply _) (measurable_pi_apply _) ?_ ?_
  · exact (iIndepFun_infinitePi (P := fun _ : ℕ => gaussianReal 0 1)
      (X := fun _ x => x) (fun _ => measurable_id)).indepFun (i := g + i) (j := g + j) (by omega)
  · exact (iIndepFun_infinitePi (P := fun _ : ℕ => volume.restrict (Set.Icc (0 : ℝ) 1))
      (X := fun _ x => x) (fun _ => measurable_id)).indepFun (i := g' + i) (j := g' + j) (by omega)

/-- The carbon monoxide of Lidz et al. 2011, for the two objects of the lightcone: the variance of their total and
of the cell of the first one. -/
example (erf : ℝ → ℝ) (w : World ℕ) (E : Env ℝ) (hE : E.fn = realFn erf) :
    ∃ (s' : (ℕ → ℝ) × (ℕ → ℝ) → State ℝ) (col : (ℕ → ℝ) × (ℕ → ℝ) → List (Option ℝ)),
      (∀ ω, ∃ m, prop E (Gal.streams ω) w .lidzCo = .ok m ∧
        make skyState m ⟨none, [], [], false, false, false, false, false⟩ = (s' ω, .ok ()) ∧
        ∀ b, returnProperty (s' ω) "LCO" true b = .ok (some (col ω))) ∧
      Var[fun ω => shown (col ω) 0 + shown (col ω) 1; Gal.chance] =
        0.09 * (2800 * (2 * 10 ^ 11 / 10 ^ 8)) ^ 2 + 0.09 * (2800 * (2 * 10 ^ 12 / 10 ^ 8)) ^ 2 := by
  obtain ⟨s', col, h1, h2⟩ := C145_total Gal.streams_random streams_separate streams_unrelated E erf hE w
    .lidzCo (by decide) (by simp) skyState skyReachable ⟨none, [], [], false, false, false, false, false⟩ rfl rfl
    "LCO" (.inr ⟨rfl, rfl⟩) (by decide) (.inr rfl) _ _ _ (skyInputs .lidzCo) (by simp) (by simp) (by simp)
  refine ⟨s', col, h1, ?_⟩
  have := h2 (Finset.range 2) (fun j hj => Finset.mem_range.1 hj)
  simp only [Finset.sum_range_succ, Finset.sum_range_zero, zero_add] at this
  refine this.trans ?_
  simp only [List.getD_cons_zero, List.getD_cons_succ, spread, squareOnAverage, onAverage, switchedOn, published,
    medianScatter, scatter, show keepsMean .lidzCo = false from rfl, Bool.false_eq_true, if_false]
  norm_num

end Verif.Ready
