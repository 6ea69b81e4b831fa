import Verif.Lemmas.Ready
import Verif.Props.Galprops

set_option linter.unusedSectionVars false

/-!
# C110: the ready-made properties
-/

namespace Verif.Ready

open Verif.Gal (Fn Rng World YFit Call Out zipA zipL scatterOwn log10normal given ndmin1)
open Verif.Gal.Spec (Lawful)
open Verif.Handler (Name State hasProperty returnProperty collectArgs evaluateAll make MakeOpts)
open Verif.Ready.Spec

variable {K G : Type} [Field K] [LinearOrder K] [IsStrictOrderedRing K]

theorem func_of (E : Env K) (R : Rng K G) (w : World G) (p : Which) (args : PyDict Name (Handler.Arg K))
    (kw : PyDict Name K) (c : Call K) (n : ℕ) (f g : ℕ → K) (hc : call E args p = some c)
    (hr : (c.run E.fn R w).1 = .ok (.val (tab n f))) (h : ∀ i < n, f i = g i) :
    func E R w p args kw = .ok [⟨false, (List.range n).map (fun i => some (g i))⟩] := by
  unfold func
  simp only [hc, hr, Gal.Arg.list, List.map_map, Except.ok.injEq, List.cons.injEq, and_true, Handler.Arr.mk.injEq,
    true_and]
  apply List.map_congr_left
  intro i hi
  simp [h i (List.mem_range.1 hi)]

theorem given_of (r : Except Gal.Err (Gal.Arg K) × World G) (a : Gal.Arg K) (h : r.1 = .ok a) :
    (given r).1 = .ok (.val a) := by
  simp [given, h, Except.map]

theorem ndmin1_of (r : Except Gal.Err (Gal.Arg K) × World G) (n : ℕ) (f : ℕ → K) (h : r.1 = .ok (tab n f)) :
    (ndmin1 r).1 = .ok (tab n f) := by
  simp [ndmin1, h, Except.map, Gal.Arg.list]

theorem firUnit_eq : (firUnit : K) = sun := by
  unfold firUnit sun
  norm_num

theorem arg_arr (args : PyDict Name (Handler.Arg K)) (k : Name) (l : List K)
    (h : args.get? k = some (.arr (l.map some))) : arg args k = some (.many l) := by
  simp [arg, h, allSome_some]

/-- The redshifts as an argument. -/
def ZArg (n : ℕ) (redshift : List K) (a : Gal.Arg K) : Prop :=
  (a = .many redshift ∧ redshift.length = n) ∨ ∃ z, a = .one z ∧ redshift = List.replicate n z

theorem replicate_getD (n i : ℕ) (z : K) (h : i < n) : (List.replicate n z).getD i 0 = z := by
  simp [List.getD_eq_getElem?_getD, h]

theorem zipA_z (f : K → K → K) (n : ℕ) (mass redshift : List K) (a : Gal.Arg K) (hm : mass.length = n)
    (hz : ZArg n redshift a) :
    ∃ g, zipA f (.many mass) a = .ok (tab n g) ∧ ∀ i < n, g i = f (mass.getD i 0) (redshift.getD i 0) := by
  rw [range_self mass n 0 hm]
  rcases hz with ⟨rfl, hl⟩ | ⟨z, rfl, rfl⟩
  · refine ⟨fun i => f (mass.getD i 0) (redshift.getD i 0), ?_, fun i hi => by rw [getD_range _ _ _ _ hi]⟩
    rw [range_self redshift n 0 hl]
    rw [← tab, ← tab, zipA_tab]
    simp only [Except.ok.injEq, Gal.Arg.many.injEq]
    apply List.map_congr_left
    intro i hi
    rw [getD_range _ _ _ _ (List.mem_range.1 hi)]
  · refine ⟨fun i => f (mass.getD i 0) z, zipA_tab_one _ _ _ _, fun i hi => ?_⟩
    rw [getD_range _ _ _ _ hi, replicate_getD _ _ _ hi]

theorem func_value (E : Env K) (R : Rng K G) (hR : Lawful R) (w : World G) (p : Which) (hp : p ≠ .coSled)
    (hset : p = .behrooziSfr ∨ p = .behrooziMass → E.setUp = true)
    (args : PyDict Name (Handler.Arg K)) (kw : PyDict Name K) (n : ℕ) (mass sfr redshift : List K)
    (hs : byRate p → arg args "sfr" = some (.many sfr) ∧ sfr.length = n)
    (hm : ¬ byRate p → arg args "mass" = some (.many mass) ∧ mass.length = n)
    (hz : byRedshift p → ∃ a, arg args "redshift" = some a ∧ ZArg n redshift a)
    (hc : p = .pullenCo → ∃ c, arg args "cosmo" = some c)
    (hpul : p = .pullenCo → n ≤ 100 ∨ ∃ z0, ∀ z ∈ redshift, z = z0) :
    func E R w p args kw =
      .ok [⟨false, (List.range n).map (fun i => some (value E p (halo R w n p mass sfr redshift i)))⟩] := by
  cases p with
  | coSled => exact absurd rfl hp
  | liCo =>
    obtain ⟨ha, hl⟩ := hs (by decide)
    refine func_of _ _ _ _ _ _ _ n
      (fun i => dexMean E.fn (3 / 10) (Gal.liMean E.fn 1 (137 / 100) (-174 / 100) 1 (sfr.getD i 0))
        ((R.normal n w.own).1.getD i 0)) _ (by simp only [call, ha]; rfl) ?_ ?_
    · refine given_of _ _ (ndmin1_of _ n _ ?_)
      simp only [Gal.Arg.map]
      rw [map_range' _ sfr n 0 hl]
      exact scatterOwn_tab _ hR _ _ _ _ _
    · intro i _
      simp only [value, halo, normals, Gal.liMean, lir, div_one, one_pow, mul_one]
      congr 5
      ring
  | lidzCo =>
    obtain ⟨ha, hl⟩ := hm (by decide)
    refine func_of _ _ _ _ _ _ _ n
      (fun i => if (R.uniform n w.own).1.getD i 0 < 1 / 10 then Gal.lidzMean (mass.getD i 0) else 0) _
      (by simp only [call, ha]; rfl) ?_ ?_
    · refine given_of _ _ ?_
      simp only [Gal.lidz11, Gal.dutyModel, if_true, Gal.Arg.list, Gal.switchOn, hl]
      rw [zip_range _ _ mass n 0 0 (hR.uniform n w.own) hl]
    · intro i _
      simp only [value, halo, uniforms, Gal.lidzMean]
      rfl
  | pullenCo =>
    obtain ⟨ha, hl⟩ := hm (by decide)
    obtain ⟨a, hza, hz⟩ := hz (by decide)
    obtain ⟨c, hca⟩ := hc rfl
    refine func_of _ _ _ _ _ _ _ n
      (fun i => if min (1 / 10 / E.age (redshift.getD i 0)) 1 < (R.uniform n w.own).1.getD i 0 then 0
        else Gal.pullenMean (mass.getD i 0)) _
      (by simp only [call, ha, hza, hca]; rfl) ?_ ?_
    · refine given_of _ _ ?_
      simp only [Gal.pullen13, if_true, Gal.Arg.list, hl]
      have hone : ∀ x : K, Gal.atMostOne x = min x 1 := by
        intro x
        unfold Gal.atMostOne
        split
        · rename_i h; rw [min_eq_right h.le]
        · rename_i h; rw [min_eq_left (not_lt.1 h)]
      rw [map_range' _ mass n 0 hl, range_self _ n 0 (hR.uniform n w.own)]
      rcases hz with ⟨rfl, hzl⟩ | ⟨z, rfl, rfl⟩
      · have hages : Gal.ages E.age redshift = redshift.map E.age := by
          rcases hpul rfl with h | ⟨z0, h⟩
          · exact Gal.ages_few _ _ (by omega)
          · exact Gal.ages_equal _ _ z0 h
        simp only [Gal.fDuty, Gal.Arg.list, hages, List.map_map]
        rw [map_range' _ redshift n 0 hzl, switchOff_tab]
        simp only [Except.map, Function.comp_apply, hone]
        simp only [Except.ok.injEq, Gal.Arg.many.injEq]
        apply List.map_congr_left
        intro i hi
        rw [getD_range _ _ _ _ (List.mem_range.1 hi)]
      · have hages : Gal.ages E.age [z] = [E.age z] := Gal.ages_few _ _ (by simp)
        simp only [Gal.fDuty, Gal.Arg.list, hages, List.map_cons, List.map_nil]
        rw [switchOff_single]
        simp only [Except.map, hone]
        simp only [Except.ok.injEq, Gal.Arg.many.injEq]
        apply List.map_congr_left
        intro i hi
        rw [getD_range _ _ _ _ (List.mem_range.1 hi), replicate_getD _ _ _ (List.mem_range.1 hi)]
    · intro i _
      simp only [value, halo, uniforms, Gal.pullenMean]
      rfl
  | keatingCo =>
    obtain ⟨ha, hl⟩ := hm (by decide)
    refine func_of _ _ _ _ _ _ _ n
      (fun i => if mass.getD i 0 < 10 ^ 10 then 0 else
        dex E.fn (3 / 10) (63 / 10 ^ 8 * mass.getD i 0) ((R.normal n w.own).1.getD i 0)) _
      (by simp only [call, ha]; rfl) ?_ ?_
    · refine given_of _ _ ?_
      simp only [Gal.keating16, Gal.Arg.list]
      rw [map_range' _ mass n 0 hl, ← tab, scatterOwn_tab _ hR]
      simp only [Except.map, Gal.Arg.list, Gal.cutBelow, tab, Bool.false_eq_true, if_false]
      rw [zip_range _ mass _ n 0 0 hl (by simp)]
      simp only [Except.ok.injEq, Gal.Arg.many.injEq]
      apply List.map_congr_left
      intro i hi
      rw [getD_range _ _ _ _ (List.mem_range.1 hi)]
    · intro i _
      simp only [value, halo, normals]
      rfl
  | gaoHcn =>
    obtain ⟨ha, hl⟩ := hs (by decide)
    refine func_of _ _ _ _ _ _ _ n
      (fun i => dexMean E.fn (3 / 10) (Gal.gaoMean E.fn 1 1 (29 / 10) 1 (sfr.getD i 0))
        ((R.normal n w.own).1.getD i 0)) _ (by simp only [call, ha]; rfl) ?_ ?_
    · refine given_of _ _ (ndmin1_of _ n _ ?_)
      simp only [Gal.Arg.map]
      rw [map_range' _ sfr n 0 hl]
      exact scatterOwn_tab _ hR _ _ _ _ _
    · intro i _
      simp only [value, halo, normals, Gal.gaoMean, lir, div_one, one_pow, mul_one]
  | breysseHcn =>
    obtain ⟨ha, hl⟩ := hm (by decide)
    refine func_of _ _ _ _ _ _ _ n
      (fun i => if (R.uniform n w.own).1.getD i 0 < 1 / 10 then Gal.breysseMean E.fn (mass.getD i 0) else 0) _
      (by simp only [call, ha]; rfl) ?_ ?_
    · refine given_of _ _ ?_
      simp only [Gal.hcnBreysse, Gal.dutyModel, if_true, Gal.Arg.list, Gal.switchOn, hl]
      rw [zip_range _ _ mass n 0 0 (hR.uniform n w.own) hl]
    · intro i _
      simp only [value, halo, uniforms, Gal.breysseMean]
      rfl
  | deloozeFir =>
    obtain ⟨ha, hl⟩ := hs (by decide)
    refine func_of _ _ _ _ _ _ _ n
      (fun i => dex E.fn (42 / 100) (E.fn.pow 10 ((E.fn.log10 (sfr.getD i 0) - -699 / 100) / (101 / 100)))
        ((R.normal n w.own).1.getD i 0)) _ (by simp only [call, ha]; rfl) ?_ ?_
    · refine given_of _ _ ?_
      have hck : Gal.deloozeCheck "[CII]" none = .ok () := by simp [Gal.deloozeCheck]
      simp only [Gal.delooze14, hck, Gal.deloozeFit, Gal.Arg.list, Option.getD_none]
      rw [map_range' _ sfr n 0 hl, ← tab]
      exact scatterOwn_tab _ hR _ _ _ _ _
    · intro i _
      simp only [value, halo, normals]
      congr 3
      ring
  | uzgilFir =>
    obtain ⟨ha, hl⟩ := hs (by decide)
    refine func_of _ _ _ _ _ _ _ n
      (fun i => dex E.fn (4 / 10) (Gal.firMean E.fn firUnit 1 (89 / 100) (244 / 100) (sfr.getD i 0))
        ((R.normal n w.own).1.getD i 0)) _ (by simp only [call, ha]; rfl) ?_ ?_
    · refine given_of _ _ ?_
      simp only [Gal.firModel, Gal.uzgilFit, Gal.Arg.list]
      rw [map_range' _ sfr n 0 hl, ← tab]
      exact scatterOwn_tab _ hR _ _ _ _ _
    · intro i _
      simp only [value, halo, normals, Gal.firMean, firUnit_eq, lir, div_one]
  | spinoglioFir =>
    obtain ⟨ha, hl⟩ := hs (by decide)
    refine func_of _ _ _ _ _ _ _ n
      (fun i => dex E.fn (4 / 10) (Gal.firMean E.fn firUnit 1 (89 / 100) (267 / 100) (sfr.getD i 0))
        ((R.normal n w.own).1.getD i 0)) _ (by simp only [call, ha]; rfl) ?_ ?_
    · refine given_of _ _ ?_
      simp only [Gal.firModel, Gal.spinoglioFit, Gal.Arg.list]
      rw [map_range' _ sfr n 0 hl, ← tab]
      exact scatterOwn_tab _ hR _ _ _ _ _
    · intro i _
      simp only [value, halo, normals, Gal.firMean, firUnit_eq, lir, div_one]
  | schaererCii =>
    obtain ⟨ha, hl⟩ := hs (by decide)
    refine func_of _ _ _ _ _ _ _ n
      (fun i => dex E.fn (4 / 10) (E.fn.pow 10 (117 / 100 * E.fn.log10 (sfr.getD i 0) + 661 / 100))
        ((R.normal n w.own).1.getD i 0)) _ (by simp only [call, ha]; rfl) ?_ ?_
    · refine given_of _ _ ?_
      have hin : ¬ "ALPINE-uvirx" ∉ ["ALPINE-uvir", "ALPINE-sed", "ALPINE-uvirx", "high z-uvirx"] := by decide
      simp only [Gal.schaerer20, Option.getD_none, if_neg hin, Gal.schaererFit, Gal.Arg.map]
      rw [map_range' _ sfr n 0 hl, ← tab]
      exact scatterOwn_tab _ hR _ _ _ _ _
    · intro i _
      simp only [value, halo, normals]
  | yangCii =>
    obtain ⟨ha, hl⟩ := hm (by decide)
    obtain ⟨a, hza, hz⟩ := hz (by decide)
    obtain ⟨g, hg, hgi⟩ := zipA_z (fun m x => Gal.yangMean E.fn (E.yang "CII" x) m) n mass redshift a hl hz
    have hline : Gal.yangLine "CII" = .ok .cii := by simp [Gal.yangLine]
    have hfit : ∃ sig, Gal.yangFit E.yang "CII" .cii a = .ok (a, sig) ∧
        (scatterOwn E.fn R true (tab n g) sig false w).1 = .ok (tab n (fun i =>
          dex E.fn (E.yang "CII" (redshift.getD i 0)).sig (g i) ((R.normal n w.own).1.getD i 0))) := by
      rcases hz with ⟨rfl, hzl⟩ | ⟨z, rfl, rfl⟩
      · refine ⟨_, rfl, ?_⟩
        rw [map_range' _ redshift n 0 hzl, ← tab]
        exact scatterOwn_tabs _ hR _ _ _ _
      · refine ⟨_, rfl, ?_⟩
        rw [scatterOwn_single _ hR]
        simp only [Except.ok.injEq, Gal.Arg.many.injEq]
        apply List.map_congr_left
        intro i hi
        rw [replicate_getD _ _ _ (List.mem_range.1 hi)]
    obtain ⟨sig, hfit, hsc⟩ := hfit
    have hduty : ∃ q, Gal.yangFduty E.fn (.many mass) a = .ok ((List.range n).map q) ∧
        ∀ i < n, q i = Gal.yangDuty E.fn (mass.getD i 0) (redshift.getD i 0) := by
      rcases hz with ⟨rfl, hzl⟩ | ⟨z, rfl, rfl⟩
      · refine ⟨fun i => Gal.yangDuty E.fn (mass.getD i 0) (redshift.getD i 0), ?_, fun i _ => rfl⟩
        simp only [Gal.yangFduty]
        rw [if_pos (by simp only [Gal.Arg.list]; omega)]
        simp only [Gal.Arg.list]
        rw [zip_range _ mass redshift n 0 0 hl hzl]
      · refine ⟨fun i => Gal.yangDuty E.fn (mass.getD i 0) z, ?_, fun i hi => by rw [replicate_getD _ _ _ hi]⟩
        simp only [Gal.yangFduty, Gal.Arg.list]
        rw [map_range' _ mass n 0 hl]
    obtain ⟨q, hq, hqi⟩ := hduty
    refine func_of _ _ _ _ _ _ _ n
      (fun i => if q i < (R.uniform n w.glob).1.getD i 0 then 0
        else dex E.fn (E.yang "CII" (redshift.getD i 0)).sig (g i) ((R.normal n w.own).1.getD i 0)) _
      (by simp only [call, ha, hza]; rfl) ?_ ?_
    · refine given_of _ _ ?_
      simp only [Gal.yang22, hline, hfit, hg, Option.elim_none]
      have hgl := (Gal.scatterOwn_frame E.fn R true (tab n g) sig false w).2
      rcases hx : scatterOwn E.fn R true (tab n g) sig false w with ⟨r, w'⟩
      rw [hx] at hsc hgl
      simp only at hsc hgl
      subst hsc
      simp only [if_true, Gal.yangSwitch, hq, tab, List.length_map, List.length_range, hgl]
      rw [range_self _ n 0 (hR.uniform n w.glob), switchOff_tab]
      simp only [Except.map]
      simp only [Except.ok.injEq, Gal.Arg.many.injEq]
      apply List.map_congr_left
      intro i hi
      rw [getD_range _ _ _ _ (List.mem_range.1 hi)]
    · intro i hi
      simp only [value, halo, normals, uniforms]
      rw [hqi i hi, hgi i hi]
      simp only [Gal.yangDuty, Gal.yangMean]
      rfl
  | padmanabhanCii =>
    obtain ⟨ha, hl⟩ := hm (by decide)
    obtain ⟨a, hza, hz⟩ := hz (by decide)
    obtain ⟨g, hg, hgi⟩ := zipA_z (Gal.padMean E.fn (239 / 10 ^ 7) (49 / 100) (419 * 10 ^ 9) (179 / 100)) n mass
      redshift a hl hz
    refine func_of _ _ _ _ _ _ _ n g _ (by simp only [call, ha, hza]; rfl) ?_ ?_
    · refine given_of _ _ ?_
      simp only [Gal.padmanabhan19, hg, Bool.false_eq_true, if_false]
    · intro i hi
      rw [hgi i hi]
      simp only [value, halo, Gal.padMean]
  | zhaoNii =>
    obtain ⟨ha, hl⟩ := hs (by decide)
    refine func_of _ _ _ _ _ _ _ n
      (fun i => dex E.fn (4 / 10)
        (E.fn.pow 10 ((E.fn.log10 (sfr.getD i 0 * 10 ^ 10 / 1) - 451 / 100) / (95 / 100)))
        ((R.normal n w.own).1.getD i 0)) _ (by simp only [call, ha]; rfl) ?_ ?_
    · refine given_of _ _ ?_
      simp only [Gal.zhao13, Gal.Arg.map]
      rw [map_range' _ sfr n 0 hl, ← tab]
      exact scatterOwn_tab _ hR _ _ _ _ _
    · intro i _
      simp only [value, halo, normals, lir, div_one]
  | behrooziSfr =>
    obtain ⟨ha, hl⟩ := hm (by decide)
    obtain ⟨a, hza, hz⟩ := hz (by decide)
    obtain ⟨g, hg, hgi⟩ := zipA_z (fun m z => E.sfrTable z m) n mass redshift a hl hz
    refine func_of _ _ _ _ _ _ _ n
      (fun i => dexMean E.fn (3 / 10) (g i) ((R.normal n w.deflt).1.getD i 0)) _
      (by simp only [call, ha, hza]; rfl) ?_ ?_
    · simp only [Gal.Call.run, Gal.behroozi, hset (.inl rfl), Bool.not_true, Bool.false_eq_true, if_false]
      rw [zipA_swap, hg]
      simp only [if_true, log10normal_tab _ hR, Except.map]
    · intro i hi
      simp only [value, halo, normals]
      rw [hgi i hi]
  | behrooziMass =>
    obtain ⟨ha, hl⟩ := hm (by decide)
    obtain ⟨a, hza, hz⟩ := hz (by decide)
    obtain ⟨g, hg, hgi⟩ := zipA_z (fun m z => E.massTable z m) n mass redshift a hl hz
    refine func_of _ _ _ _ _ _ _ n
      (fun i => dexMean E.fn (3 / 10) (g i) ((R.normal n w.deflt).1.getD i 0)) _
      (by simp only [call, ha, hza]; rfl) ?_ ?_
    · simp only [Gal.Call.run, Gal.behroozi, hset (.inr rfl), Bool.not_true, Bool.false_eq_true, if_false]
      rw [zipA_swap, hg]
      simp only [if_true, log10normal_tab _ hR, Except.map]
    · intro i hi
      simp only [value, halo, normals]
      rw [hgi i hi]

/-- The property object. -/
theorem prop_eq (E : Env K) (R : Rng K G) (w : World G) (p : Which) (hp : p ≠ .coSled) :
    ∃ m, prop E R w p = .ok m ∧ m.names = [(label p).1] ∧ m.fn = func E R w p ∧ m.kwargs = p.kwargs ∧
      m.giveH = false ∧ m.returnH = false ∧ m.units = [((label p).1, (label p).2)] ∧
      m.hdep = some [((label p).1, 0)] := by
  refine ⟨_, rfl, ?_⟩
  cases p <;> first | exact absurd rfl hp | exact ⟨rfl, rfl, rfl, rfl, rfl, rfl, rfl⟩

/-- The arguments of the function. -/
theorem inputs_args (s : State K) (u : Bool) (remap : PyDict Name Name) (n : ℕ) (p : Which)
    (mass sfr redshift : List K) (hi : Inputs s u remap n p mass sfr redshift) :
    ∃ args, collectArgs s remap u false [] p.kwargs = .ok args ∧
      (byRate p → arg args "sfr" = some (.many sfr) ∧ sfr.length = n) ∧
      (¬ byRate p → arg args "mass" = some (.many mass) ∧ mass.length = n) ∧
      (byRedshift p → ∃ a, arg args "redshift" = some a ∧ ZArg n redshift a) ∧
      (p = .pullenCo → ∃ c, arg args "cosmo" = some c) := by
  classical
  have hkey : ∀ kw ∈ p.kwargs, (kw = "sfr" ∧ byRate p) ∨ (kw = "mass" ∧ ¬ byRate p) ∨
      (kw = "redshift" ∧ byRedshift p) ∨ (kw = "cosmo" ∧ p = .pullenCo) := by
    cases p <;> decide
  have hin : (byRate p → "sfr" ∈ p.kwargs) ∧ (¬ byRate p → "mass" ∈ p.kwargs) ∧
      (byRedshift p → "redshift" ∈ p.kwargs) ∧ (p = .pullenCo → "cosmo" ∈ p.kwargs) := by
    cases p <;> decide
  have hex : ∀ kw, ∃ a : Handler.Arg K, kw ∈ p.kwargs →
      (hasProperty s ((remap.get? kw).getD kw) = true ∧ ∃ vs, a = .arr vs ∧
        returnProperty s ((remap.get? kw).getD kw) u (some false) = .ok (some vs)) ∨
      (hasProperty s ((remap.get? kw).getD kw) = false ∧ ∃ x, a = .scalar x ∧
        s.extra.get? ((remap.get? kw).getD kw) = some x) := by
    intro kw
    by_cases hk : kw ∈ p.kwargs
    · rcases hkey kw hk with ⟨rfl, h⟩ | ⟨rfl, h⟩ | ⟨rfl, h⟩ | ⟨rfl, h⟩
      · obtain ⟨-, h1, h2⟩ := hi.rate h
        exact ⟨_, fun _ => .inl ⟨h1, _, rfl, h2⟩⟩
      · obtain ⟨-, h1, h2⟩ := hi.mass h
        exact ⟨_, fun _ => .inl ⟨h1, _, rfl, h2⟩⟩
      · rcases hi.redshift h with ⟨-, h1, h2⟩ | ⟨h1, x, h2, -⟩
        · exact ⟨_, fun _ => .inl ⟨h1, _, rfl, h2⟩⟩
        · exact ⟨_, fun _ => .inr ⟨h1, _, rfl, h2⟩⟩
      · obtain ⟨-, h1, x, h2, -⟩ := hi.cosmo h
        exact ⟨_, fun _ => .inr ⟨h1, _, rfl, h2⟩⟩
    · exact ⟨.pyNone, fun h => absurd h hk⟩
  choose a ha using hex
  obtain ⟨args, o1, o2, -⟩ := collectArgs_any s remap u false a p.kwargs (fun kw hk => ha kw hk) []
  refine ⟨args, o1, ?_, ?_, ?_, ?_⟩
  · intro h
    obtain ⟨hl, h1, h2⟩ := hi.rate h
    refine ⟨arg_arr _ _ _ ?_, hl⟩
    rw [o2 _ (hin.1 h)]
    rcases ha _ (hin.1 h) with ⟨-, vs, e, h3⟩ | ⟨h3, -⟩
    · rw [h2] at h3; simp only [Except.ok.injEq, Option.some.injEq] at h3; rw [e, h3]
    · rw [h1] at h3; cases h3
  · intro h
    obtain ⟨hl, h1, h2⟩ := hi.mass h
    refine ⟨arg_arr _ _ _ ?_, hl⟩
    rw [o2 _ (hin.2.1 h)]
    rcases ha _ (hin.2.1 h) with ⟨-, vs, e, h3⟩ | ⟨h3, -⟩
    · rw [h2] at h3; simp only [Except.ok.injEq, Option.some.injEq] at h3; rw [e, h3]
    · rw [h1] at h3; cases h3
  · intro h
    rcases hi.redshift h with ⟨hl, h1, h2⟩ | ⟨h1, x, h2, hx⟩
    · refine ⟨_, arg_arr _ _ redshift ?_, .inl ⟨rfl, hl⟩⟩
      rw [o2 _ (hin.2.2.1 h)]
      rcases ha _ (hin.2.2.1 h) with ⟨-, vs, e, h3⟩ | ⟨h3, -⟩
      · rw [h2] at h3; simp only [Except.ok.injEq, Option.some.injEq] at h3; rw [e, h3]
      · rw [h1] at h3; cases h3
    · refine ⟨.one x, ?_, .inr ⟨x, rfl, hx⟩⟩
      unfold arg
      rw [o2 _ (hin.2.2.1 h)]
      rcases ha _ (hin.2.2.1 h) with ⟨h3, -⟩ | ⟨-, y, e, h3⟩
      · rw [h1] at h3; cases h3
      · rw [h2] at h3; simp only [Option.some.injEq] at h3; rw [e, h3]
  · intro h
    obtain ⟨-, h1, x, h2, -⟩ := hi.cosmo h
    refine ⟨.one x, ?_⟩
    unfold arg
    rw [o2 _ (hin.2.2.2 h)]
    rcases ha _ (hin.2.2.2 h) with ⟨h3, -⟩ | ⟨-, y, e, h3⟩
    · rw [h1] at h3; cases h3
    · rw [h2] at h3; simp only [Option.some.injEq] at h3; rw [e, h3]

/-- Evaluating a ready-made property gives one value for each selected halo, by the published relation for the mass,
star formation rate and redshift of that halo and its own random numbers. -/
theorem C110_values (E : Env K) (R : Rng K G) (hR : Lawful R) (w : World G) (p : Which) (hp : p ≠ .coSled)
    (hset : p = .behrooziSfr ∨ p = .behrooziMass → E.setUp = true)
    (s : State K) (u : Bool) (remap : PyDict Name Name) (n : ℕ) (mass sfr redshift : List K)
    (hi : Inputs s u remap n p mass sfr redshift)
    (hpul : p = .pullenCo → n ≤ 100 ∨ ∃ z0, ∀ z ∈ redshift, z = z0) :
    ∃ m, prop E R w p = .ok m ∧ evaluateAll m s u remap [] =
      .ok [⟨false, (List.range n).map (fun i => some (value E p (halo R w n p mass sfr redshift i)))⟩] := by
  obtain ⟨m, hm, m1, m2, m3, m4, m5, m6, m7⟩ := prop_eq E R w p hp
  refine ⟨m, hm, ?_⟩
  obtain ⟨args, a1, a2, a3, a4, a5⟩ := inputs_args s u remap n p mass sfr redshift hi
  have hf := func_value E R hR w p hp hset args [] n mass sfr redshift a2 a3 a4 a5 hpul
  have hany : (args.keys.any fun k => PyDict.has (α := K) ([] : PyDict Name K) k) = false := by
    simp [PyDict.has]
  unfold evaluateAll
  simp only [m1, m2, m3, m4, m5, m7, a1, hany, Bool.false_eq_true, if_false, hf, List.length_cons, List.length_nil,
    ne_eq, not_true_eq_false, List.zip_cons_cons, List.zip_nil_right, Handler.toHUnits, PyDict.get?_cons, if_true,
    false_and, if_false]

theorem return_zero (s : State K) (q : Name) (u : Bool) (b : Option Bool) (h : s.hdep.get? q = some 0) :
    returnProperty s q u b = returnProperty s q u (some true) := by
  unfold returnProperty
  simp only [h, Option.getD_some, if_true]
  cases b.getD s.inH <;> simp

/-- `make_property` with a ready-made property succeeds in every state of a snapshot or lightcone that has the inputs,
unless the name is in use: the new property has the documented units and no factors of h, each selected halo has the
value of the relation, all others have NaN, and all other properties read as before. -/
theorem C110_make (E : Env K) (R : Rng K G) (hR : Lawful R) (w : World G) (p : Which) (hp : p ≠ .coSled)
    (hset : p = .behrooziSfr ∨ p = .behrooziMass → E.setUp = true)
    (s : State K) (hr : Handler.Spec.Reachable s) (o : MakeOpts K) (hdisk : o.writeDisk = false)
    (hkw : o.otherKws = []) (name : Name) (hn : o.rename = some [name] ∨ o.rename = none ∧ name = (label p).1)
    (hmc : name ≠ "mass_cuts") (hfree : o.overwrite = true ∨ hasProperty s name = false)
    (mass sfr redshift : List K)
    (hi : Inputs s o.useAll o.remap (Handler.Spec.selection s o.useAll).length p mass sfr redshift)
    (hpul : p = .pullenCo → (Handler.Spec.selection s o.useAll).length ≤ 100 ∨ ∃ z0, ∀ z ∈ redshift, z = z0) :
    ∃ m s', prop E R w p = .ok m ∧ make s m o = (s', .ok ()) ∧
      s'.units.get? name = some (label p).2 ∧
      (∃ full, (∀ b, returnProperty s' name true b = .ok (some full)) ∧ full.length = s.nAll ∧
        (∀ (j i : ℕ), (Handler.Spec.selection s o.useAll)[j]? = some i → full[i]? =
          some (some (value E p (halo R w (Handler.Spec.selection s o.useAll).length p mass sfr redshift j)))) ∧
        (∀ i < s.nAll, i ∉ Handler.Spec.selection s o.useAll → full[i]? = some none)) ∧
      (∀ q, q ≠ name → ∀ u b, returnProperty s' q u b = returnProperty s q u b) := by
  have hI := Handler.reachable_inv hr
  obtain ⟨m, hm, hev⟩ := C110_values E R hR w p hp hset s o.useAll o.remap _ mass sfr redshift hi hpul
  obtain ⟨m', hm', m1, m2, m3, m4, m5, m6, m7⟩ := prop_eq E R w p hp
  rw [hm] at hm'; cases hm'
  obtain ⟨n, hnn⟩ : ∃ n, n = (Handler.Spec.selection s o.useAll).length := ⟨_, rfl⟩
  rw [← hnn] at hev
  obtain ⟨vals, hvals⟩ : ∃ vals, vals =
    (List.range n).map (fun i => some (value E p (halo R w n p mass sfr redshift i))) := ⟨_, rfl⟩
  rw [← hvals] at hev
  have hnames : o.rename.getD m.names = [name] := by
    rcases hn with h | ⟨h, rfl⟩ <;> simp [h, m1]
  have hmk : Handler.makeNames m o.rename = .ok [name] := by
    unfold Handler.makeNames
    rcases hn with h | ⟨h, rfl⟩ <;> simp [h, m1]
  obtain ⟨exist, e1⟩ := Handler.checkNames_succeeds s o.overwrite [name]
    (hfree.imp id (fun h q hq => by simp at hq; subst hq; simpa [hasProperty] using h))
  obtain ⟨e2, e3⟩ := Handler.checkNames_ok _ _ _ _ e1
  match exist, e2 with
  | [b], _ =>
    have hvl : vals.length = (Handler.inds s o.useAll).length := by
      rw [hvals, List.length_map, List.length_range, hnn, Handler.selection_eq]
    obtain ⟨out, d1, d2, d3, d4⟩ := Handler.scatter_spec (List.replicate s.nAll (none : Handler.V K))
      (Handler.inds s o.useAll) vals hvl (Handler.inds_nodup s hI _) (by
        intro i hi; simpa using Handler.inds_bound s hI _ i hi)
    have hst := Handler.storeOne_succeeds m.units [((label p).1, 0)] (Handler.inds s o.useAll) s
      ⟨(label p).1, name, b, ⟨false, vals⟩⟩ rfl out d1
      (by rw [m6]; simp only [PyDict.get?_cons, if_true, Option.isSome_some])
      (by simp only [PyDict.get?_cons, if_true, Option.isSome_some])
    obtain ⟨s', hs'⟩ := hst
    have hloop : Handler.forEach (Handler.storeOne m.units (some [((label p).1, 0)]) (Handler.inds s o.useAll)) s
        [⟨(label p).1, name, b, ⟨false, vals⟩⟩] = (s', .ok ()) := by
      simp only [Handler.forEach, hs']
    have hmake : make s m o = (s', .ok ()) := by
      unfold make
      simp only [hdisk, Bool.and_false, Bool.false_and, Bool.false_eq_true, if_false, hmk, e1, hkw, hev, m7, m1,
        Handler.items, hloop]
    obtain ⟨-, -, -, b4⟩ := Handler.storeAll_ok _ _ _ _ s s' (by simp) (by
      intro it hit hite
      simp only [List.mem_singleton] at hit
      subst hit
      exact (e3 0 name b rfl rfl).1 hite) hloop
    obtain ⟨-, -, vals', un, hd', e', c1, c2, c3, c4, c5, c6, c7⟩ := b4 _ (List.mem_singleton_self _)
    simp only [Option.some.injEq] at c2 c3 c4 c6 c7
    subst c3
    simp only [m6, PyDict.get?_cons, if_true, Option.some.injEq] at c2 c4
    subst c2 c4
    obtain ⟨⟨vals'', w1, -, w2⟩, w3, -⟩ := Handler.C07_values s s' hr m o hdisk (by rw [hnames]; simp)
      (by rw [hnames]; simpa using fun h => hmc h.symm) hmake
    rw [hkw, hev] at w1
    simp only [Except.ok.injEq] at w1
    subst w1
    obtain ⟨full, f1, f2, f3, f4⟩ := w2 0 name ⟨false, vals⟩ (by rw [hnames]; rfl) rfl
    refine ⟨m, s', hm, hmake, c6, ⟨full, ?_, f2, ?_, f4⟩, ?_⟩
    · intro b
      rw [return_zero _ _ _ _ c7, f1]
    · intro j i hj
      have hjl : j < n := by
        rw [hnn]; exact (List.getElem?_eq_some_iff.1 hj).1
      rw [f3 (by rw [Handler.selection_eq]; exact hvl) j i hj, ← hnn]
      simp [hvals, hjl]
    · intro q hq u b
      exact w3 q (by rw [hnames]; simpa using hq) u b

theorem collectArgs_missing (s : State K) (remap : PyDict Name Name) (u g : Bool) (k : Name) (kws : List Name)
    (hk : k ∈ kws) (h1 : hasProperty s ((remap.get? k).getD k) = false)
    (h2 : s.extra.get? ((remap.get? k).getD k) = none) (acc : PyDict Name (Handler.Arg K)) :
    ∃ e, collectArgs s remap u g acc kws = .error e := by
  induction kws generalizing acc with
  | nil => simp at hk
  | cons kw kws ih =>
    unfold collectArgs
    dsimp only
    by_cases hkk : k = kw
    · subst hkk
      rw [if_neg (by simp [h1]), h2]
      exact ⟨_, rfl⟩
    · have hk' : k ∈ kws := by
        rcases List.mem_cons.1 hk with h | h
        · exact absurd h hkk
        · exact h
      split
      · split
        · exact ⟨_, rfl⟩
        · exact ih hk' _
        · exact ih hk' _
      · split
        · exact ih hk' _
        · exact ⟨_, rfl⟩

/-- If an input is neither a property nor a number of the snapshot, nothing is made: an exception. -/
theorem C110_missing (E : Env K) (R : Rng K G) (w : World G) (p : Which) (m : Handler.MultiProp K)
    (hm : prop E R w p = .ok m) (s : State K) (k : Name) (hk : Needs p k) (o : MakeOpts K)
    (h1 : hasProperty s ((o.remap.get? k).getD k) = false) (h2 : s.extra.get? ((o.remap.get? k).getD k) = none) :
    ∃ e, make s m o = (s, .error e) := by
  have hin : k ∈ p.kwargs := by
    rcases hk with ⟨h, rfl⟩ | ⟨h, rfl⟩ | ⟨h, rfl⟩ | ⟨h, rfl⟩ <;> revert h <;> cases p <;> decide
  have hkw : m.kwargs = p.kwargs := by
    unfold prop Handler.mkMultiProp at hm
    simp only [Except.ok.injEq] at hm
    rw [← hm]
  have hev : ∃ e, evaluateAll m s o.useAll o.remap o.otherKws = .error e := by
    obtain ⟨e, he⟩ := collectArgs_missing s o.remap o.useAll m.giveH k m.kwargs (hkw ▸ hin) h1 h2 []
    exact ⟨e, by unfold evaluateAll; simp only [he]⟩
  obtain ⟨e, he⟩ := hev
  unfold make
  dsimp only
  split
  · exact ⟨_, rfl⟩
  · split
    · exact ⟨_, rfl⟩
    · split
      · exact ⟨_, rfl⟩
      · rw [he]; exact ⟨_, rfl⟩

theorem make_func_error (m : Handler.MultiProp K) (hf : ∀ a k, ∃ e, m.fn a k = .error e) (s : State K)
    (o : MakeOpts K) : ∃ e, make s m o = (s, .error e) := by
  have hev : ∃ e, evaluateAll m s o.useAll o.remap o.otherKws = .error e := by
    unfold evaluateAll
    split
    · exact ⟨_, rfl⟩
    · rename_i args _
      split
      · exact ⟨_, rfl⟩
      · obtain ⟨e, he⟩ := hf args o.otherKws
        rw [he]; exact ⟨_, rfl⟩
  obtain ⟨e, he⟩ := hev
  unfold make
  dsimp only
  split
  · exact ⟨_, rfl⟩
  · split
    · exact ⟨_, rfl⟩
    · split
      · exact ⟨_, rfl⟩
      · rw [he]; exact ⟨_, rfl⟩

theorem prop_fn (E : Env K) (R : Rng K G) (w : World G) (p : Which) (m : Handler.MultiProp K)
    (hm : prop E R w p = .ok m) : m.fn = func E R w p := by
  unfold prop Handler.mkMultiProp at hm
  simp only [Except.ok.injEq] at hm
  rw [← hm]

/-- The ladder of CO lines (`prop_co_sled`) can never be made, whatever the snapshot contains. -/
theorem C110_sled_fails (E : Env K) (R : Rng K G) (w : World G) (m : Handler.MultiProp K)
    (hm : prop E R w .coSled = .ok m) (s : State K) (o : MakeOpts K) : ∃ e, make s m o = (s, .error e) := by
  apply make_func_error
  intro a k
  rw [prop_fn E R w _ m hm]
  unfold func
  split
  · exact ⟨_, rfl⟩
  · rename_i c hc
    simp only [call, Option.map_eq_some_iff] at hc
    obtain ⟨x, -, rfl⟩ := hc
    have hlines : ((List.range 13).map (fun i => (i : ℤ) + 1)).any (fun l => decide (l < 1 ∨ 13 < l)) = false := by
      decide
    simp only [Call.run, given, Gal.kamenetzky16, hlines, Bool.false_eq_true, if_false]
    cases x <;> exact ⟨_, rfl⟩

/-- Before `setupsimim` the properties from the tables of Behroozi et al. cannot be made. -/
theorem C110_before_setup (E : Env K) (hE : E.setUp = false) (R : Rng K G) (w : World G) (p : Which)
    (hp : p = .behrooziSfr ∨ p = .behrooziMass) (m : Handler.MultiProp K) (hm : prop E R w p = .ok m) (s : State K)
    (o : MakeOpts K) : ∃ e, make s m o = (s, .error e) := by
  apply make_func_error
  intro a k
  rw [prop_fn E R w _ m hm]
  unfold func
  split
  · exact ⟨_, rfl⟩
  · rename_i c hc
    have : ∃ ev z x, c = .behroozi false ev z x true (3 / 10) := by
      rcases hp with rfl | rfl
      all_goals
        simp only [call, hE] at hc
        split at hc
        · simp only [Option.some.injEq] at hc
          exact ⟨_, _, _, hc.symm⟩
        · cases hc
    obtain ⟨ev, z, x, rfl⟩ := this
    simp [Call.run, Gal.behroozi]

/-! ## Examples -/

/-- A snapshot with three halos, at redshift 1; masses are stored in Msun/h with h = 1/2. -/
def exFile : PyDict Name (Handler.Dataset ℚ) :=
  [("mass", ⟨[some (10 ^ 10), some (10 ^ 9), some (10 ^ 11)], some "Msun/h", some (-1), false⟩),
   ("sfr", ⟨[some 1, some 2, some 3], some "Msun/yr", some 0, false⟩)]

/-- The snapshot opened. -/
def exOpen : State ℚ where
  file := exFile
  h := 1 / 2
  all := ["mass", "sfr"]
  units := [("mass", "Msun/h"), ("sfr", "Msun/yr")]
  hdep := [("mass", -1), ("sfr", 0)]
  saved := ["mass", "sfr"]
  nAll := 3
  loaded := []
  generated := []
  active := [0, 1, 2]
  nActive := 3
  inH := false
  extra := [("h", 1 / 2)]

/-- With its redshift and cosmology, and with the first and the second halo selected. -/
def exState : State ℚ :=
  { exOpen with extra := [("h", 1 / 2), ("redshift", 1), ("cosmo", 0)], active := [0, 1], nActive := 2 }

theorem exWF : Handler.Spec.WF exFile 3 where
  nodup := by decide
  mass := ⟨_, rfl, rfl⟩
  lengths := by
    intro p d h hp
    simp only [exFile, PyDict.get?_cons] at h
    split at h
    · cases h; rfl
    · split at h
      · cases h; rfl
      · simp [PyDict.get?] at h
  units := by
    intro p d h hp
    simp only [exFile, List.mem_cons, List.not_mem_nil, or_false, Prod.mk.injEq] at h
    rcases h with ⟨-, rfl⟩ | ⟨-, rfl⟩ <;> rfl
  hdep := by
    intro p d h hp
    simp only [exFile, List.mem_cons, List.not_mem_nil, or_false, Prod.mk.injEq] at h
    rcases h with ⟨-, rfl⟩ | ⟨-, rfl⟩ <;> rfl

/-- Reached by restricting the star formation rate to values up to 2. -/
theorem exReachable : Handler.Spec.Reachable exState := by
  refine ⟨exFile, 3, 1 / 2, false, exOpen, [("h", 1 / 2), ("redshift", 1), ("cosmo", 0)],
    [.range (some "sfr") none (some 2) true none], exWF, rfl, ?_⟩
  rfl

/-- All inputs of each ready-made property are there. -/
theorem exInputs (p : Which) :
    Inputs exState false [] 2 p [2 * 10 ^ 10, 2 * 10 ^ 9] [1, 2] (List.replicate 2 1) where
  rate := fun _ => ⟨rfl, rfl, by decide +kernel⟩
  mass := fun _ => ⟨rfl, rfl, by decide +kernel⟩
  redshift := fun _ => .inr ⟨by decide, 1, rfl, rfl⟩
  cosmo := fun _ => ⟨_, by decide, 0, rfl, rfl⟩

/-- What the functions use, in place of the real ones. -/
def exEnv : Env ℚ := ⟨Gal.ratFn, fun z => 10 / (1 + z), fun _ _ => ⟨1, 1, 1, 1, 1 / 2⟩, true, fun z m => z * m, fun _ m => m⟩

/-- The options. -/
def exOpts : MakeOpts ℚ := ⟨none, [], [], true, false, false, false, false⟩

/-- Each ready-made property but the ladder can be made there. -/
example (p : Which) (hp : p ≠ .coSled) (w : World ℕ) :
    ∃ m s', prop exEnv Gal.counter w p = .ok m ∧ make exState m exOpts = (s', .ok ()) := by
  obtain ⟨m, s', h1, h2, -⟩ := C110_make exEnv Gal.counter Gal.counter_lawful w p hp (fun _ => rfl) exState
    exReachable exOpts rfl rfl (label p).1 (.inr ⟨rfl, rfl⟩) (by cases p <;> decide) (.inl rfl) _ _ _ (exInputs p)
    (fun _ => .inl (by decide))
  exact ⟨m, s', h1, h2⟩

/-- The CO luminosities of Keating et al. there: the second halo is below the smallest mass, the third is not
selected. -/
example : (match prop exEnv Gal.counter ⟨0, 0, 0⟩ .keatingCo with
    | .ok m => match (returnProperty (make exState m exOpts).1 "LCO" true none) with
      | .ok (some v) => decide (v = [some 12600, some 0, none])
      | _ => false
    | .error _ => false) = true := by decide +kernel

/-- C110 in full: every ready-made property can be made wherever its inputs are there. -/
def C110_full : Prop :=
  ∀ (E : Env ℚ) (R : Rng ℚ ℕ) (w : World ℕ) (p : Which) (m : Handler.MultiProp ℚ) (s : State ℚ) (o : MakeOpts ℚ)
    (mass sfr redshift : List ℚ), Lawful R → E.setUp = true → prop E R w p = .ok m → Handler.Spec.Reachable s →
    o.writeDisk = false → o.otherKws = [] → o.rename = none → o.overwrite = true →
    Inputs s o.useAll o.remap (Handler.Spec.selection s o.useAll).length p mass sfr redshift →
    ∃ s', make s m o = (s', .ok ())

theorem C110_full_false : ¬ C110_full := by
  intro h
  obtain ⟨s', hs'⟩ := h exEnv Gal.counter ⟨0, 0, 0⟩ .coSled _ exState exOpts _ _ _ Gal.counter_lawful rfl rfl
    exReachable rfl rfl rfl rfl (exInputs .coSled)
  obtain ⟨e, he⟩ := C110_sled_fails exEnv Gal.counter ⟨0, 0, 0⟩ _ rfl exState exOpts
  rw [he] at hs'
  cases hs'

end Verif.Ready
