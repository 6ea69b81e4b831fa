import Verif.Props.GalpropsCalls

/-!
# Exact values of the galaxy property functions and the random numbers they use up
-/

set_option linter.unusedSectionVars false

namespace Verif.Gal

open Spec

variable {K G : Type} [Field K] [LinearOrder K] [IsStrictOrderedRing K]

/-! ## Average luminosities -/

/-- Without random numbers, every halo of `pullen13` gets its luminosity times its duty cycle. -/
theorem C45_pullen_average (R : Rng K G) (age : K → K) (masses : List K) (z : Arg K) (sf : K) (w : World G)
    (hz : z.list.length = masses.length ∨ z.list.length = 1) :
    ∃ after, pullen13 R age (.many masses) z false sf w = (.ok (.many after), w) ∧
      after.length = masses.length ∧
      ∀ (i : ℕ) (m : K), masses[i]? = some m → ∃ f,
        ((fDuty age sf z)[i]? = some f ∨ fDuty age sf z = [f]) ∧
        after[i]? = some (10 ^ 6 * m / (5 * 10 ^ 11) * f) := by
  have hlf : (fDuty age sf z).length = z.list.length := by simp [fDuty, ages_length]
  have key : ∃ after, scaleBy (masses.map pullenMean) (fDuty age sf z) = .ok after ∧
      after.length = masses.length ∧
      ∀ (i : ℕ) (m : K), masses[i]? = some m → ∃ f,
        ((fDuty age sf z)[i]? = some f ∨ fDuty age sf z = [f]) ∧
        after[i]? = some (10 ^ 6 * m / (5 * 10 ^ 11) * f) := by
    generalize fDuty age sf z = fs at hlf
    unfold scaleBy
    by_cases h1 : (masses.map pullenMean).length = fs.length
    · rw [if_pos h1]
      simp only [List.length_map] at h1
      refine ⟨_, rfl, by simp [h1], ?_⟩
      intro i m hm
      obtain ⟨hi, _⟩ := List.getElem?_eq_some_iff.1 hm
      have hf := List.getElem?_eq_getElem (l := fs) (i := i) (by omega)
      refine ⟨_, .inl hf, ?_⟩
      rw [List.getElem?_zipWith, List.getElem?_map, hm, hf]
      rfl
    · rw [if_neg h1]
      simp only [List.length_map] at h1
      have : fs.length = 1 := by omega
      match fs, this with
      | [q], _ =>
        refine ⟨_, rfl, by simp, ?_⟩
        intro i m hm
        refine ⟨q, .inr rfl, ?_⟩
        rw [List.getElem?_map, List.getElem?_map, hm]
        rfl
  obtain ⟨after, h1, h2⟩ := key
  refine ⟨after, ?_, h2⟩
  unfold pullen13
  rw [if_neg (by simp)]
  show ((scaleBy (masses.map pullenMean) (fDuty age sf z)).map Arg.many, w) = _
  rw [h1]
  rfl

/-- Two halos, with one redshift. -/
example : (pullen13 counter (fun z : ℚ => 10 / (1 + z)) (.many [5 * 10 ^ 11, 10 ^ 12]) (.one 4)
    false 1 ⟨1, 0, 0⟩).1 = .ok (.many [5 * 10 ^ 5, 10 ^ 6]) := by decide +kernel

/-- So does every halo of `lidz11` and `hcn_breysse`. -/
theorem C45_average (fn : Fn K) (R : Rng K G) (mass : Arg K) (duty : K) (w : World G) :
    lidz11 R mass duty false w = (.ok (.many (mass.list.map (fun m => 2800 * (m / 10 ^ 8) * duty))), w) ∧
      hcnBreysse fn R mass duty false w =
        (.ok (.many (mass.list.map (fun m => 17 / 10 ^ 16 * fn.pow m (167 / 100) * duty))), w) := by
  constructor <;> rfl

/-- The duty cycle of `yang22` is one from redshift four on and less below. -/
theorem C45_yang_redshift (fn : Fn K) (hfn : Usual fn) (m z : K) (hm : 0 < m) :
    (4 ≤ z → yangDuty fn m z = 1) ∧ (z < 4 → yangDuty fn m z < 1) := by
  constructor
  · intro h
    unfold yangDuty
    rw [if_neg (not_lt.2 h)]
  · intro h
    unfold yangDuty
    rw [if_pos h]
    have h1 : 0 < fn.pow 10 (1173 / 100 + 6634 / 10000 * z) := hfn.pos _ _ (by norm_num)
    have h2 := hfn.pos (m / fn.pow 10 (1173 / 100 + 6634 / 10000 * z))
      (137 / 100 - 190 / 1000 * z + 215 / 10000 * z ^ 2) (div_pos hm h1)
    exact inv_lt_one_of_one_lt₀ (by linarith)

/-! ## Star formation rates -/

/-- The logarithm of the rate on the main sequence: straight up to a mass that depends on redshift, and bent
downwards above, never upwards. -/
theorem C45_main_sequence (fn : Fn K) (p : B17 K) (m z : K) :
    ∃ y, sfms fn p m z = fn.pow 10 y ∧
      (fn.log10 (m / 10 ^ 9) ≤ p.m1 + p.a2 * fn.log10 (1 + z) →
        y = fn.log10 (m / 10 ^ 9) - p.m0 + p.a0 * fn.log10 (1 + z) - lowzTerm p z) ∧
      (p.m1 + p.a2 * fn.log10 (1 + z) ≤ fn.log10 (m / 10 ^ 9) →
        y = fn.log10 (m / 10 ^ 9) - p.m0 + p.a0 * fn.log10 (1 + z) -
          p.a1 * (fn.log10 (m / 10 ^ 9) - (p.m1 + p.a2 * fn.log10 (1 + z))) ^ 2 - lowzTerm p z) := by
  refine ⟨_, rfl, ?_, ?_⟩
  · intro h
    have : term2 fn p m z = 0 := by
      unfold term2
      simp only
      split
      · rfl
      · rename_i hc
        push Not at hc
        linarith
    rw [this]
    ring
  · intro h
    have : term2 fn p m z = fn.log10 (m / 10 ^ 9) - (p.m1 + p.a2 * fn.log10 (1 + z)) := by
      unfold term2
      simp only
      split
      · linarith
      · ring
    rw [this]

/-- The correction at low redshift ends at redshift 1/2; below it grows in proportion and is a tenth at redshift
0.22. -/
theorem C45_low_redshift (p : B17 K) (z : K) :
    (p.lowz = false ∨ 1 / 2 ≤ z → lowzTerm p z = 0) ∧
      (p.lowz = true → z < 1 / 2 → 0 < lowzTerm p z) ∧
      (p.lowz = true → lowzTerm p (22 / 100) = 1 / 10 ∧
        (z ≤ 1 / 2 → lowzTerm p z * (1 / 2 - 22 / 100) = 1 / 10 * (1 / 2 - z))) := by
  refine ⟨?_, ?_, ?_⟩
  · rintro (h | h)
    · unfold lowzTerm; rw [if_neg (by simp [h])]
    · unfold lowzTerm; rw [if_neg (fun hc => absurd hc.2 (not_lt.2 h))]
  · intro h hz
    unfold lowzTerm
    rw [if_pos ⟨h, hz⟩]
    apply div_pos
    · apply mul_pos (by norm_num) (by linarith)
    · norm_num
  · intro h
    unfold lowzTerm
    refine ⟨by rw [if_pos ⟨h, by norm_num⟩]; norm_num, fun hz => ?_⟩
    rcases hz.lt_or_eq with hz | rfl
    · rw [if_pos ⟨h, hz⟩, div_mul_cancel₀ _ (by norm_num)]
    · simp

theorem b17All_get (fn : Fn K) (p : B17 K) (ms : List (Option K)) (zs ns us vs : List K)
    (h1 : zs.length = ms.length) (h2 : ns.length = ms.length) (h3 : us.length = ms.length)
    (h4 : vs.length = ms.length) :
    (b17All fn p ms zs ns us vs).length = ms.length ∧
      ∀ (i : ℕ) (m : Option K) (z n u v : K), ms[i]? = some m → zs[i]? = some z → ns[i]? = some n →
        us[i]? = some u → vs[i]? = some v →
        (b17All fn p ms zs ns us vs)[i]? = some (b17One fn p m z n u v) := by
  induction ms generalizing zs ns us vs with
  | nil => simp [b17All]
  | cons m ms ih =>
    match zs, ns, us, vs, h1, h2, h3, h4 with
    | z :: zs, n :: ns, u :: us, v :: vs, h1, h2, h3, h4 =>
      simp only [List.length_cons, Nat.add_right_cancel_iff] at h1 h2 h3 h4
      obtain ⟨e1, e2⟩ := ih zs ns us vs h1 h2 h3 h4
      refine ⟨by simp [b17All, e1], ?_⟩
      intro i m' z' n' u' v' a1 a2 a3 a4 a5
      rcases i with _ | i
      · simp only [List.getElem?_cons_zero, Option.some.injEq] at a1 a2 a3 a4 a5
        subst a1 a2 a3 a4 a5
        rfl
      · simp only [List.getElem?_cons_succ] at a1 a2 a3 a4 a5
        simp only [b17All, List.getElem?_cons_succ]
        exact e2 i m' z' n' u' v' a1 a2 a3 a4 a5

/-- **Which galaxies.** Every galaxy of an array uses one normal and two uniform numbers: it is quenched if
the second uniform number exceeds the fraction of star forming galaxies, otherwise a starburst if the first
is below the fraction of starbursts; its rate is that of the main sequence, scattered, times the factor of
starbursts or of ordinary galaxies, up to the limit. -/
theorem C45_flags (fn : Fn K) (R : Rng K G) (hR : Lawful R) (p : B17 K) (hlim : 0 ≤ p.limit)
    (hms : p.msoffset ≠ 0) (ms : List (Option K)) (z : Arg K) (zs : List K)
    (hz : (z = .many zs ∧ zs.length = ms.length) ∨ ∃ x, z = .one x ∧ zs = List.replicate ms.length x)
    (w : World G) :
    ∃ ns us vs g1 g2 g3 gs,
      R.normal ms.length w.own = (ns, g1) ∧ R.uniform ms.length g1 = (us, g2) ∧
      R.uniform ms.length g2 = (vs, g3) ∧
      b17Sfr fn R p ms z w = (.ok gs, { w with own := g3 }) ∧ gs.length = ms.length ∧
      ∀ (i : ℕ) (m z n u v : K), ms[i]? = some (some m) → zs[i]? = some z → ns[i]? = some n →
        us[i]? = some u → vs[i]? = some v → ∃ g, gs[i]? = some g ∧
          (g.quenched = true ↔ sffrac fn p m z < v) ∧
          (g.starburst = true ↔ v ≤ sffrac fn p m z ∧ u < sbfrac z) ∧
          g.sfr = some (if g.quenched then 0
            else min p.limit ((if g.starburst then p.sboffset else p.msoffset) *
              (sfms fn p m z * fn.pow 10 (p.sigma * n)))) := by
  have hmatch : matched p ms z = .ok (ms, zs) ∧ zs.length = ms.length := by
    rcases hz with ⟨rfl, h⟩ | ⟨x, rfl, rfl⟩
    · exact ⟨by simp only [matched]; rw [if_pos h], h⟩
    · exact ⟨rfl, by simp⟩
  obtain ⟨hmatch, hzl⟩ := hmatch
  rcases hn : R.normal ms.length w.own with ⟨ns, g1⟩
  rcases hu : R.uniform ms.length g1 with ⟨us, g2⟩
  rcases hv : R.uniform ms.length g2 with ⟨vs, g3⟩
  have ln : ns.length = ms.length := by have := hR.normal ms.length w.own; rw [hn] at this; exact this
  have lu : us.length = ms.length := by have := hR.uniform ms.length g1; rw [hu] at this; exact this
  have lv : vs.length = ms.length := by have := hR.uniform ms.length g2; rw [hv] at this; exact this
  obtain ⟨e1, e2⟩ := b17All_get fn p ms zs ns us vs hzl ln lu lv
  refine ⟨ns, us, vs, g1, g2, g3, _, rfl, hu, hv, ?_, e1, ?_⟩
  · unfold b17Sfr
    rw [hmatch]
    simp only
    rw [hn]
    simp only
    rw [hu]
    simp only
    rw [hv]
  · intro i m z n u v a1 a2 a3 a4 a5
    refine ⟨_, e2 i (some m) z n u v a1 a2 a3 a4 a5, ?_⟩
    have hmin : ∀ x : K, (if x > p.limit then p.limit else x) = min p.limit x := by
      intro x
      split
      · rename_i h; rw [min_eq_left h.le]
      · rename_i h; rw [min_eq_right (not_lt.1 h)]
    by_cases hq : sffrac fn p m z < v
    · refine ⟨by simp [b17One, hq], by simp [b17One, hq], ?_⟩
      simp [b17One, hq, not_lt.2 hlim]
    · have hq' : v ≤ sffrac fn p m z := not_lt.1 hq
      by_cases hs : u < sbfrac z
      · refine ⟨by simp [b17One, hq], by simp [b17One, hq, hq', hs], ?_⟩
        simp only [b17One, rate0, Option.map_some, hq, hs, decide_true, decide_false, if_true,
          Bool.false_eq_true, if_false, hmin]
        congr 2
        field_simp
      · refine ⟨by simp [b17One, hq], by simp [b17One, hq, hs], ?_⟩
        simp only [b17One, rate0, Option.map_some, hq, hs, decide_false,
          Bool.false_eq_true, if_false, hmin]
        congr 2
        ring

/-- Parameters that meet the conditions, with a starburst, an ordinary and a quenched galaxy. -/
example : 0 ≤ b17Small.limit ∧ b17Small.msoffset ≠ 0 ∧ Lawful steps ∧
    (b17Sfr ratFn steps b17Small [some 1000000000, some 1000000000, none, some 1000000000] (.one 2)
      ⟨0, 0, 0⟩).2.own = 3 :=
  ⟨by simp [b17Small], by simp [b17Small], steps_lawful, by decide +kernel⟩

/-! ## Numbers of redshifts -/

/-- Redshifts in another number than that of the galaxies are refused before any random number is drawn. -/
theorem C90_redshifts_refused (fn : Fn K) (R : Rng K G) (p : B17 K) (ms : List (Option K)) (zs : List K)
    (w : World G) (h : zs.length ≠ ms.length) (h1 : zs.length ≠ 1) (h2 : ms.length ≠ 1) :
    b17Sfr fn R p ms (.many zs) w = (.error .valueError, w) := by
  have : matched p ms (.many zs) = .error .valueError := by
    simp only [matched]
    rw [if_neg h]
    match ms, zs, h1, h2 with
    | [], [], _, _ => simp at h
    | [], _ :: _ :: _, _, _ => rfl
    | _ :: _ :: _, [], _, _ => rfl
    | _ :: _ :: _, _ :: _ :: _, _, _ => rfl
  unfold b17Sfr
  rw [this]

/-- One redshift in an array does for several galaxies only without the correction at low redshift. -/
theorem C90_one_redshift (fn : Fn K) (R : Rng K G) (p : B17 K) (ms : List (Option K)) (z : K)
    (w : World G) (h2 : ms.length ≠ 1) :
    b17Sfr fn R p ms (.many [z]) w =
      if p.lowz then (.error .indexError, w) else b17Sfr fn R p ms (.one z) w := by
  have hm : matched p ms (.many [z]) =
      if p.lowz then .error .indexError else .ok (ms, List.replicate ms.length z) := by
    simp only [matched]
    rw [if_neg (by simp only [List.length_cons, List.length_nil]; omega)]
    match ms, h2 with
    | [], _ => rfl
    | _ :: _ :: _, _ => rfl
  unfold b17Sfr
  rw [hm]
  cases p.lowz <;> rfl

/-- Two galaxies and three redshifts; two galaxies and one redshift. -/
example : (b17Sfr ratFn steps b17Small [some 1, some 2] (.many [0, 1, 2]) ⟨5, 0, 0⟩) =
      (.error .valueError, ⟨5, 0, 0⟩) ∧
    (b17Sfr ratFn steps { b17Small with lowz := true } [some 1, some 2] (.many [0]) ⟨5, 0, 0⟩) =
      (.error .indexError, ⟨5, 0, 0⟩) :=
  ⟨C90_redshifts_refused _ _ _ _ _ _ (by simp) (by simp) (by simp),
    C90_one_redshift _ _ _ _ _ _ (by simp)⟩

/-! ## The random numbers used up -/

theorem centre_size (fn : Fn K) (x dex mu : Arg K) (p : Bool) (hd : p = false ∨ ∃ d, dex = .one d)
    (h : centre fn x dex p = .ok mu) : mu.size = x.size := by
  unfold centre at h
  cases p
  · simp only [Bool.false_eq_true, if_false, Except.ok.injEq] at h
    rw [h]
  · rcases hd with hd | ⟨d, rfl⟩
    · cases hd
    · simp only [if_true] at h
      cases x with
      | one x => simp only [zipA, Except.ok.injEq] at h; subst h; rfl
      | many xs => simp only [zipA, Except.ok.injEq] at h; subst h; simp [Arg.size]

theorem log10normal_state (fn : Fn K) (R : Rng K G) (x dex y : Arg K) (p : Bool) (g : G)
    (hd : p = false ∨ ∃ d, dex = .one d) (h : (log10normal fn R x dex p g).1 = .ok y) :
    (log10normal fn R x dex p g).2 = (R.normal x.size g).2 := by
  unfold log10normal at h ⊢
  rcases hc : centre fn x dex p with e | mu
  · rw [hc] at h; cases h
  · simp only
    rw [centre_size fn x dex mu p hd hc]

theorem scatterOwn_state (fn : Fn K) (R : Rng K G) (on : Bool) (x dex y : Arg K) (p : Bool) (w : World G)
    (hd : p = false ∨ ∃ d, dex = .one d) (h : (scatterOwn fn R on x dex p w).1 = .ok y) :
    (scatterOwn fn R on x dex p w).2 =
      if on then { w with own := (R.normal x.size w.own).2 } else w := by
  unfold scatterOwn at h ⊢
  cases on
  · rfl
  · simp only [if_true] at h ⊢
    rw [log10normal_state fn R x dex y p w.own hd h]

/-- **Numbers used up.** After a call that succeeds the generators are where they are after drawing the
numbers that were used: calling again uses new numbers. -/
theorem C46_used_up (fn : Fn K) (R : Rng K G) (hR : Lawful R) (c : Call K)
    (hc : ¬ NotSetUp c) (w : World G) (o : Out K) (h : (c.run fn R w).1 = .ok o) :
    (c.run fn R w).2 = usedUp R c w := by
  have hone : ∀ (p : Bool) (d : K), p = false ∨ ∃ d', Arg.one d = .one d' := fun p d => .inr ⟨d, rfl⟩
  cases c with
  | keating16 mass mMin a s sig =>
    obtain ⟨v, hv, rfl⟩ := given_ok h
    simp only [keating16] at hv
    rcases hs : (scatterOwn fn R s (.many (mass.list.map (fun m => a * m))) (.one sig) false w).1
      with e | l
    · rw [hs] at hv; cases hv
    · have := scatterOwn_state fn R s _ _ l false w (.inl rfl) hs
      show (scatterOwn fn R s (.many (mass.list.map (fun m => a * m))) (.one sig) false w).2 = _
      rw [this]
      simp only [usedUp, Arg.size, List.length_map, Arg.size_list]
  | li16 sfr d a b r s sig =>
    obtain ⟨v, hv, rfl⟩ := given_ok h
    obtain ⟨u, hu, rfl⟩ := ndmin1_ok hv
    refine (scatterOwn_state fn R s _ _ u true w (hone _ _) hu).trans ?_
    simp only [usedUp, Arg.size_map]
  | pullen13 age mass z r l =>
    simp only [Call.run, given, pullen13, usedUp]
    rw [← Arg.size_list mass]
    cases r <;> rfl
  | lidz11 mass d r =>
    simp only [Call.run, given, lidz11, dutyModel, usedUp]
    rw [← Arg.size_list mass]
    cases r <;> rfl
  | kamenetzky16 sfr lines =>
    obtain ⟨e, he⟩ := C89_kamenetzky fn R sfr lines w
    rw [he] at h; cases h
  | hcnGao sfr d a b r s sig =>
    obtain ⟨v, hv, rfl⟩ := given_ok h
    obtain ⟨u, hu, rfl⟩ := ndmin1_ok hv
    refine (scatterOwn_state fn R s _ _ u true w (hone _ _) hu).trans ?_
    simp only [usedUp, Arg.size_map]
  | hcnBreysse mass d r =>
    simp only [Call.run, given, hcnBreysse, dutyModel, usedUp]
    rw [← Arg.size_list mass]
    cases r <;> rfl
  | delooze14 sfr line set s fix =>
    obtain ⟨v, hv, rfl⟩ := given_ok h
    simp only [Call.run, given]
    unfold delooze14 at hv ⊢
    rcases hk : deloozeCheck line set with e | u
    · rw [hk] at hv; cases hv
    · rw [hk] at hv
      simp only at hv ⊢
      rcases hf : deloozeFit (K := K) line set with _ | f
      · rw [hf] at hv; cases hv
      · rw [hf] at hv
        refine (scatterOwn_state fn R s _ _ v false w (.inl rfl) hv).trans ?_
        simp only [usedUp, Arg.size, List.length_map, Arg.size_list]
  | uzgil14 unit sfr d line s sig =>
    obtain ⟨v, hv, rfl⟩ := given_ok h
    simp only [Call.run, given]
    unfold firModel at hv ⊢
    rcases hf : uzgilFit (K := K) line with _ | ⟨a, b⟩
    · rw [hf] at hv; cases hv
    · rw [hf] at hv
      refine (scatterOwn_state fn R s _ _ v false w (.inl rfl) hv).trans ?_
      simp only [usedUp, Arg.size, List.length_map, Arg.size_list]
  | spinoglio12 unit sfr d line s sig =>
    obtain ⟨v, hv, rfl⟩ := given_ok h
    simp only [Call.run, given]
    unfold firModel at hv ⊢
    rcases hf : spinoglioFit (K := K) line with _ | ⟨a, b⟩
    · rw [hf] at hv; cases hv
    · rw [hf] at hv
      refine (scatterOwn_state fn R s _ _ v false w (.inl rfl) hv).trans ?_
      simp only [usedUp, Arg.size, List.length_map, Arg.size_list]
  | schaerer20 sfr set s sig =>
    obtain ⟨v, hv, rfl⟩ := given_ok h
    simp only [Call.run, given]
    simp only [schaerer20] at hv ⊢
    split at hv
    · cases hv
    · rename_i hin
      rw [if_neg hin]
      rcases hf : schaererFit (K := K) (set.getD "ALPINE-uvirx") with _ | ⟨a, b⟩
      · rw [hf] at hv; cases hv
      · rw [hf] at hv
        refine (scatterOwn_state fn R s _ _ v false w (.inl rfl) hv).trans ?_
        simp only [usedUp, Arg.size_map]
  | zhao13 sfr d s sig =>
    obtain ⟨v, hv, rfl⟩ := given_ok h
    refine (scatterOwn_state fn R s _ _ v false w (.inl rfl) hv).trans ?_
    simp only [usedUp, Arg.size_map]
  | padmanabhan19 mass z m1 b n1 a s sig =>
    obtain ⟨v, hv, rfl⟩ := given_ok h
    simp only [Call.run, given]
    unfold padmanabhan19 at hv ⊢
    rcases hl : zipA (padMean fn m1 b n1 a) mass z with e | l
    · rw [hl] at hv; cases hv
    · rw [hl] at hv
      simp only at hv ⊢
      have hsz := zipA_together _ _ _ _ hl
      cases s
      · rfl
      · cases sig with
        | none => cases hv
        | some d =>
          refine (scatterOwn_state fn R true _ _ v true w (hone _ _) hv).trans ?_
          simp only [usedUp, hsz]
  | yang22 fit mass z line f s fix =>
    obtain ⟨v, hv, rfl⟩ := given_ok h
    simp only [Call.run, given]
    unfold yang22 at hv ⊢
    rcases hk : yangLine line with e | kind
    · rw [hk] at hv; cases hv
    · rw [hk] at hv
      simp only at hv ⊢
      rcases hf : yangFit fit line kind z with e | ⟨zs, sig⟩
      · rw [hf] at hv; cases hv
      · rw [hf] at hv
        simp only at hv ⊢
        obtain ⟨rfl, hsig⟩ := yangFit_size fit line kind z zs sig hf
        rcases hl : zipA (fun m x => yangMean fn (fit line x) m) mass zs with e | l
        · rw [hl] at hv; cases hv
        · rw [hl] at hv
          simp only at hv ⊢
          have hsz := zipA_together _ _ _ _ hl
          rcases hs : scatterOwn fn R s l (fix.elim sig .one) false w with ⟨e | l', w'⟩
          · rw [hs] at hv; cases hv
          · rw [hs] at hv
            simp only at hv ⊢
            have hfit := zipA_fits _ _ _ _ hl
            have hl' : l'.size = together mass.size zs.size := by
              have := scatterOwn_size fn hR s l (fix.elim sig .one) l' false w (by rw [hs])
                ⟨by
                  cases fix with
                  | some d => exact one_together _
                  | none =>
                    show together sig.size l.size = l.size
                    rw [hsig, hsz]
                    unfold together
                    split <;> split <;> omega, by simp⟩
              rw [this]; exact hsz
            have hw' := scatterOwn_state fn R s l (fix.elim sig .one) l' false w (.inl rfl) (by rw [hs])
            rw [hs] at hw'
            simp only at hw'
            rw [hsz] at hw'
            cases f
            · simp only [Bool.false_eq_true, if_false]
              rw [hw']; rfl
            · simp only [if_true, yangSwitch] at hv ⊢
              rcases hd : yangFduty fn mass zs with e | q
              · rw [hd] at hv; cases hv
              · rw [hd] at hv
                simp only at hv ⊢
                cases l' with
                | one x => cases hv
                | many ls =>
                  have hls : ls.length = together mass.size zs.size := hl'
                  simp only [hls, usedUp, if_true]
                  rw [hw']
                  cases s <;> rfl
  | behroozi p ev z mass s sig =>
    simp only [Call.run, behroozi] at h ⊢
    cases p with
    | false => exact absurd rfl hc
    | true =>
      simp only [Bool.not_true, Bool.false_eq_true, if_false] at h ⊢
      rcases hl : zipA ev z mass with e | l
      · rw [hl] at h; cases h
      · rw [hl] at h
        simp only at h ⊢
        have hsz := zipA_together _ _ _ _ hl
        cases s
        · rfl
        · simp only [if_true] at h ⊢
          rcases hr : (log10normal fn R l (.one sig) true w.deflt).1 with e | y
          · rw [hr] at h; cases h
          · rw [log10normal_state fn R l (.one sig) y true w.deflt (hone _ _) hr]
            simp only [usedUp, if_true, hsz]

/-- A call with scatter. -/
example : ((Call.keating16 (.many [5, 20, 30]) 10 2 true (1 / 2)).run ratFn counter ⟨2, 0, 0⟩).2.own =
      (usedUp counter (.keating16 (.many [5, 20, 30]) 10 2 true (1 / 2)) ⟨2, 0, 0⟩).own ∧
    (usedUp counter (.keating16 (.many [5, 20, 30]) 10 2 true (1 / 2)) ⟨2, 0, 0⟩).own ≠ 2 := by
  decide +kernel

end Verif.Gal
