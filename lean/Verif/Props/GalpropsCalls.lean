import Verif.Props.Galprops

set_option linter.unusedSectionVars false

/-!
# C46: results follow the generator passed; C88: every galaxy for itself; C89: documented lines and sets;
C90: one value per galaxy or an exception
-/

namespace Verif.Gal

open Verif.Gal.Spec

variable {K G : Type} [Field K] [LinearOrder K] [IsStrictOrderedRing K]

/-! ## C46 -/

/-- Two results of the same call agree, and so do the generators passed afterwards. -/
def SameOwn {α : Type} (r r' : α × World G) : Prop := r.1 = r'.1 ∧ r.2.own = r'.2.own

theorem given_own {r r' : Except Err (Arg K) × World G} (h : SameOwn r r') :
    SameOwn (given r) (given r') := ⟨by simp [given, h.1], h.2⟩

theorem ndmin1_own {r r' : Except Err (Arg K) × World G} (h : SameOwn r r') :
    SameOwn (ndmin1 r) (ndmin1 r') := ⟨by simp [ndmin1, h.1], h.2⟩

theorem yang_noduty (fn : Fn K) (R : Rng K G) (fit : String → K → YFit K) (mass z : Arg K)
    (line : String) (scatter : Bool) (fix : Option K) (w : World G) :
    yang22 fn R fit mass z line false scatter fix w =
      match yangLine line with
      | .error e => (.error e, w)
      | .ok kind =>
        match yangFit fit line kind z with
        | .error e => (.error e, w)
        | .ok (zs, sig) =>
          match zipA (fun m x => yangMean fn (fit line x) m) mass zs with
          | .error e => (.error e, w)
          | .ok l => scatterOwn fn R scatter l (fix.elim sig .one) false w := by
  unfold yang22
  rcases yangLine line with e | kind
  · rfl
  · simp only
    rcases yangFit fit line kind z with e | ⟨zs, sig⟩
    · rfl
    · simp only
      rcases zipA (fun m x => yangMean fn (fit line x) m) mass zs with e | l
      · rfl
      · simp only
        rcases scatterOwn fn R scatter l (fix.elim sig .one) false w with ⟨e | l', w'⟩ <;> rfl

/-- All calls but those that use other generators: same state of the generator passed, same result
and same state afterwards. -/
theorem C46_own_generator_partial (fn : Fn K) (R : Rng K G) (c : Call K) (hc : ¬ UsesOther c)
    (w w' : World G) (h : w.own = w'.own) :
    (c.run fn R w).1 = (c.run fn R w').1 ∧ (c.run fn R w).2.own = (c.run fn R w').2.own := by
  have hs := fun on x d p => scatterOwn_own fn R on x d p w w' h
  cases c with
  | keating16 mass mMin a s sig =>
    refine given_own ⟨?_, (hs _ _ _ _).2⟩
    simp only [keating16]
    rw [(hs _ _ _ _).1]
  | li16 sfr d a b r s sig => exact given_own (ndmin1_own (hs _ _ _ _))
  | pullen13 age mass z r l =>
    refine given_own ?_
    unfold pullen13
    cases r
    · exact ⟨rfl, h⟩
    · exact ⟨by simp [h], by simp [h]⟩
  | lidz11 mass d r =>
    refine given_own ?_
    unfold lidz11 dutyModel
    cases r
    · exact ⟨rfl, h⟩
    · exact ⟨by simp [h], by simp [h]⟩
  | kamenetzky16 sfr lines =>
    refine given_own ?_
    unfold kamenetzky16
    split
    · exact ⟨rfl, h⟩
    · cases sfr <;> exact ⟨rfl, h⟩
  | hcnGao sfr d a b r s sig => exact given_own (ndmin1_own (hs _ _ _ _))
  | hcnBreysse mass d r =>
    refine given_own ?_
    unfold hcnBreysse dutyModel
    cases r
    · exact ⟨rfl, h⟩
    · exact ⟨by simp [h], by simp [h]⟩
  | delooze14 sfr line set s fix =>
    refine given_own ?_
    unfold delooze14
    rcases deloozeCheck line set with e | u
    · exact ⟨rfl, h⟩
    · simp only
      rcases deloozeFit (K := K) line set with _ | f
      · exact ⟨rfl, h⟩
      · exact hs _ _ _ _
  | uzgil14 unit sfr d line s sig =>
    refine given_own ?_
    unfold firModel
    rcases uzgilFit (K := K) line with _ | ⟨a, b⟩
    · exact ⟨rfl, h⟩
    · exact hs _ _ _ _
  | spinoglio12 unit sfr d line s sig =>
    refine given_own ?_
    unfold firModel
    rcases spinoglioFit (K := K) line with _ | ⟨a, b⟩
    · exact ⟨rfl, h⟩
    · exact hs _ _ _ _
  | schaerer20 sfr set s sig =>
    refine given_own ?_
    unfold schaerer20
    simp only
    split
    · exact ⟨rfl, h⟩
    · rcases schaererFit (K := K) (set.getD "ALPINE-uvirx") with _ | ⟨a, b⟩
      · exact ⟨rfl, h⟩
      · exact hs _ _ _ _
  | zhao13 sfr d s sig => exact given_own (hs _ _ _ _)
  | padmanabhan19 mass z m1 b n1 a s sig =>
    refine given_own ?_
    unfold padmanabhan19
    rcases zipA (padMean fn m1 b n1 a) mass z with e | l
    · exact ⟨rfl, h⟩
    · simp only
      cases s
      · exact ⟨rfl, h⟩
      · cases sig
        · exact ⟨rfl, h⟩
        · exact hs _ _ _ _
  | yang22 fit mass z line f s fix =>
    cases f with
    | true => exact absurd rfl hc
    | false =>
      refine given_own ?_
      rw [yang_noduty, yang_noduty]
      rcases yangLine line with e | kind
      · exact ⟨rfl, h⟩
      · simp only
        rcases yangFit fit line kind z with e | ⟨zs, sig⟩
        · exact ⟨rfl, h⟩
        · simp only
          rcases zipA (fun m x => yangMean fn (fit line x) m) mass zs with e | l
          · exact ⟨rfl, h⟩
          · exact hs _ _ _ _
  | behroozi p ev z mass s sig =>
    cases s with
    | true => exact absurd rfl hc
    | false =>
      simp only [Call.run, behroozi]
      cases p
      · exact ⟨rfl, h⟩
      · rcases zipA ev z mass with e | v
        · exact ⟨rfl, h⟩
        · exact ⟨rfl, h⟩

/-- So does `b17_sfr`. -/
theorem C46_rates (fn : Fn K) (R : Rng K G) (p : B17 K) (ms : List (Option K)) (z : Arg K)
    (w w' : World G) (h : w.own = w'.own) :
    (b17Sfr fn R p ms z w).1 = (b17Sfr fn R p ms z w').1 ∧
    (b17Sfr fn R p ms z w).2.own = (b17Sfr fn R p ms z w').2.own := by
  unfold b17Sfr
  rcases matched p ms z with e | ⟨ms', zs⟩
  · exact ⟨rfl, h⟩
  · simp [h]

/-- These calls leave the other generators alone. -/
theorem C46_others_untouched (fn : Fn K) (R : Rng K G) (c : Call K) (hc : ¬ UsesOther c)
    (w : World G) :
    (c.run fn R w).2.deflt = w.deflt ∧ (c.run fn R w).2.glob = w.glob := by
  have hs := fun on x d p => scatterOwn_frame fn R on x d p w
  cases c with
  | keating16 mass mMin a s sig => exact hs _ _ _ _
  | li16 sfr d a b r s sig => exact hs _ _ _ _
  | pullen13 age mass z r l =>
    simp only [Call.run, given, pullen13]
    cases r <;> exact ⟨rfl, rfl⟩
  | lidz11 mass d r =>
    simp only [Call.run, given, lidz11, dutyModel]
    cases r <;> exact ⟨rfl, rfl⟩
  | kamenetzky16 sfr lines =>
    simp only [Call.run, given, kamenetzky16]
    split
    · exact ⟨rfl, rfl⟩
    · cases sfr <;> exact ⟨rfl, rfl⟩
  | hcnGao sfr d a b r s sig => exact hs _ _ _ _
  | hcnBreysse mass d r =>
    simp only [Call.run, given, hcnBreysse, dutyModel]
    cases r <;> exact ⟨rfl, rfl⟩
  | delooze14 sfr line set s fix =>
    simp only [Call.run, given, delooze14]
    rcases deloozeCheck line set with e | u
    · exact ⟨rfl, rfl⟩
    · simp only
      rcases deloozeFit (K := K) line set with _ | f
      · exact ⟨rfl, rfl⟩
      · exact hs _ _ _ _
  | uzgil14 unit sfr d line s sig =>
    simp only [Call.run, given, firModel]
    rcases uzgilFit (K := K) line with _ | ⟨a, b⟩
    · exact ⟨rfl, rfl⟩
    · exact hs _ _ _ _
  | spinoglio12 unit sfr d line s sig =>
    simp only [Call.run, given, firModel]
    rcases spinoglioFit (K := K) line with _ | ⟨a, b⟩
    · exact ⟨rfl, rfl⟩
    · exact hs _ _ _ _
  | schaerer20 sfr set s sig =>
    simp only [Call.run, given, schaerer20]
    split
    · exact ⟨rfl, rfl⟩
    · rcases schaererFit (K := K) (set.getD "ALPINE-uvirx") with _ | ⟨a, b⟩
      · exact ⟨rfl, rfl⟩
      · exact hs _ _ _ _
  | zhao13 sfr d s sig => exact hs _ _ _ _
  | padmanabhan19 mass z m1 b n1 a s sig =>
    simp only [Call.run, given, padmanabhan19]
    rcases zipA (padMean fn m1 b n1 a) mass z with e | l
    · exact ⟨rfl, rfl⟩
    · simp only
      cases s
      · exact ⟨rfl, rfl⟩
      · cases sig
        · exact ⟨rfl, rfl⟩
        · exact hs _ _ _ _
  | yang22 fit mass z line f s fix =>
    cases f with
    | true => exact absurd rfl hc
    | false =>
      simp only [Call.run, given]
      rw [yang_noduty]
      rcases yangLine line with e | kind
      · exact ⟨rfl, rfl⟩
      · simp only
        rcases yangFit fit line kind z with e | ⟨zs, sig⟩
        · exact ⟨rfl, rfl⟩
        · simp only
          rcases zipA (fun m x => yangMean fn (fit line x) m) mass zs with e | l
          · exact ⟨rfl, rfl⟩
          · exact hs _ _ _ _
  | behroozi p ev z mass s sig =>
    cases s with
    | true => exact absurd rfl hc
    | false =>
      simp only [Call.run, behroozi]
      cases p
      · exact ⟨rfl, rfl⟩
      · rcases zipA ev z mass with e | v
        · exact ⟨rfl, rfl⟩
        · exact ⟨rfl, rfl⟩

/-- The call of `C45_keating_cut`'s example, in two worlds that differ in the other generators. -/
example : ((Call.keating16 (.many [5, 20, 30]) 10 2 true (1 / 2)).run ratFn counter ⟨2, 0, 0⟩).1
    = ((Call.keating16 (.many [5, 20, 30]) 10 2 true (1 / 2)).run ratFn counter ⟨2, 7, 9⟩).1 ∧
    ¬ UsesOther (Call.keating16 (.many [5, 20, 30]) 10 2 true (1 / 2) : Call ℚ) :=
  ⟨(C46_own_generator_partial ratFn counter
    (.keating16 (.many [5, 20, 30]) 10 2 true (1 / 2)) (fun h => h) _ _ rfl).1, fun h => h⟩

/-- The generator passed to `sfr` and `stellarmass` of `sfr_behroozi13` is not used at all: whatever it
is, the result is the same, and it is not advanced. -/
theorem C46_behroozi_ignores (fn : Fn K) (R : Rng K G) (pathSet : Bool) (ev : K → K → K)
    (z mass : Arg K) (scatter : Bool) (sig : K) (w : World G) (g : G) :
    ((Call.behroozi pathSet ev z mass scatter sig).run fn R { w with own := g }).1
      = ((Call.behroozi pathSet ev z mass scatter sig).run fn R w).1 ∧
    ((Call.behroozi pathSet ev z mass scatter sig).run fn R w).2.own = w.own := by
  simp only [Call.run, behroozi]
  cases pathSet
  · exact ⟨rfl, rfl⟩
  · rcases zipA ev z mass with e | v
    · exact ⟨rfl, rfl⟩
    · cases scatter <;> exact ⟨rfl, rfl⟩

/-- So that two calls with generators in the same state give different values whenever the default
generator gives different numbers. -/
theorem C46_behroozi_differs (fn : Fn K) (R : Rng K G) (ev : K → K → K) (z m sig : K)
    (hsig : sig ≠ 0) (hev : ev z m ≠ 0) (hpos : ∀ y, fn.pow 10 y ≠ 0)
    (hinj : ∀ x y, fn.pow 10 x = fn.pow 10 y → x = y) (g d d' glob : G) (a b : K)
    (ha : (R.normal 1 d).1 = [a]) (hb : (R.normal 1 d').1 = [b]) (hab : a ≠ b) :
    ((Call.behroozi true ev (.one z) (.one m) true sig).run fn R ⟨g, d, glob⟩).1
      ≠ ((Call.behroozi true ev (.one z) (.one m) true sig).run fn R ⟨g, d', glob⟩).1 := by
  simp only [Call.run, behroozi, Bool.not_true, Bool.false_eq_true, if_false, zipA, if_true,
    log10normal, centre, Arg.size, ha, hb, shaped, spread, Except.map]
  intro h
  simp only [Except.ok.injEq, Out.val.injEq, Arg.one.injEq] at h
  have h1 := mul_left_cancel₀ (div_ne_zero hev (hpos _)) h
  exact hab (mul_left_cancel₀ hsig (hinj _ _ h1))

/-- The duty cycle of `yang22` does not come from the generator passed: it is not advanced, and with
scatter switched off it has no influence. -/
theorem C46_yang_duty_ignores (fn : Fn K) (R : Rng K G) (fit : String → K → YFit K) (mass z : Arg K)
    (line : String) (fix : Option K) (w : World G) (g : G) :
    ((Call.yang22 fit mass z line true false fix).run fn R { w with own := g }).1
      = ((Call.yang22 fit mass z line true false fix).run fn R w).1 ∧
    ((Call.yang22 fit mass z line true false fix).run fn R w).2.own = w.own := by
  simp only [Call.run, given, yang22]
  rcases yangLine line with e | kind
  · exact ⟨rfl, rfl⟩
  · simp only
    rcases yangFit fit line kind z with e | ⟨zs, sig⟩
    · exact ⟨rfl, rfl⟩
    · simp only
      rcases zipA (fun m x => yangMean fn (fit line x) m) mass zs with e | l
      · exact ⟨rfl, rfl⟩
      · simp only [scatterOwn_off, if_true, yangSwitch]
        rcases yangFduty fn mass z with e | f
        · exact ⟨rfl, rfl⟩
        · simp only
          cases l <;> exact ⟨rfl, rfl⟩

/-- C46 as stated. -/
def C46_full : Prop :=
  ∀ (fn : Fn ℚ) (R : Rng ℚ ℕ), Lawful R → ∀ (c : Call ℚ) (w w' : World ℕ), w.own = w'.own →
    (c.run fn R w).1 = (c.run fn R w').1

theorem C46_full_false : ¬ C46_full := by
  intro H
  have := H ratFn counter counter_lawful
    (.behroozi true (fun _ _ => 1) (.one 1) (.one 1) true 1) ⟨0, 0, 0⟩ ⟨0, 1, 0⟩ rfl
  revert this
  decide +kernel

/-! ## C88 -/

/-- Up to 100 galaxies, and any number of galaxies at the same redshift: the duty cycle of each is that
for its own redshift. -/
theorem C88_duty_partial (age : K → K) (sf : K) (zs : List K)
    (h : zs.length ≤ 100 ∨ ∃ z0, ∀ z ∈ zs, z = z0) (i : ℕ) (z : K) (hz : zs[i]? = some z) :
    ∃ f, (fDuty age sf (.many zs))[i]? = some f ∧ fDuty age sf (.one z) = [f] := by
  have hages : ages age zs = zs.map age := by
    rcases h with h | ⟨z0, h⟩
    · exact ages_few age zs h
    · exact ages_equal age zs z0 h
  refine ⟨atMostOne (sf / age z), ?_, ?_⟩
  · simp [fDuty, Arg.list, hages, hz]
  · simp [fDuty, Arg.list, ages_few age [z] (by simp)]

/-- More than 100 redshifts: 0 to 49, and 1/2, with others equal to 0. -/
def many : List ℚ := (List.range 50).map (fun (i : ℕ) => (i : ℚ)) ++ (1 / 2) :: List.replicate 50 0

/-- The duty cycle of the galaxy at redshift 1/2. -/
theorem C88_duty_interpolated :
    (fDuty (fun z : ℚ => 1 / (1 + z)) (1 / 10) (.many many))[50]? = some (2 / 15) ∧
    fDuty (fun z : ℚ => 1 / (1 + z)) (1 / 10) (.one (1 / 2)) = [3 / 20] := by
  decide +kernel

/-- C88 as stated for duty cycles. -/
def C88_full : Prop :=
  ∀ (age : ℚ → ℚ) (sf : ℚ) (zs : List ℚ), (∀ z ∈ zs, 0 ≤ z) → (∀ z, 0 ≤ z → 0 < age z) →
    ∀ (i : ℕ) (z : ℚ), zs[i]? = some z →
      ∃ f, (fDuty age sf (.many zs))[i]? = some f ∧ fDuty age sf (.one z) = [f]

theorem C88_full_false : ¬ C88_full := by
  intro H
  obtain ⟨f, h1, h2⟩ := H (fun z => 1 / (1 + z)) (1 / 10) many (by
      intro z hz
      simp only [many, List.mem_append, List.mem_map, List.mem_cons, List.mem_replicate] at hz
      rcases hz with ⟨i, -, rfl⟩ | rfl | ⟨-, rfl⟩
      · positivity
      · norm_num
      · norm_num)
    (fun z hz => by positivity) 50 (1 / 2) (by decide +kernel)
  rw [C88_duty_interpolated.1] at h1
  rw [C88_duty_interpolated.2] at h2
  simp only [Option.some.injEq] at h1
  subst h1
  simp only [List.cons.injEq, and_true] at h2
  norm_num at h2

theorem alone_map (f : K → K) : Alone (fun xs : List K => .ok (.many (xs.map f))) := by
  intro xs
  refine ⟨_, rfl, by simp, ?_⟩
  intro i x hx
  exact ⟨f x, by simp [hx], rfl⟩

theorem alone_zip (f : K → K → K) :
    Alone (fun xs : List (K × K) => zipA f (.many (xs.map Prod.fst)) (.many (xs.map Prod.snd))) := by
  intro xs
  refine ⟨xs.map (fun p => f p.1 p.2), ?_, by simp, ?_⟩
  · simp only [zipA]
    rw [zipL_same _ _ _ (by simp)]
    simp only [Except.map, Except.ok.injEq, Arg.many.injEq]
    induction xs with
    | nil => rfl
    | cons x xs ih => simp [ih]
  · intro i x hx
    refine ⟨f x.1 x.2, by simp [hx], ?_⟩
    simp only [zipA, List.map_cons, List.map_nil]
    rw [zipL_same _ _ _ (by simp)]
    rfl

/-- Without scatter and random duty cycles all other models give every galaxy what it gets alone. -/
theorem C88_alone (fn : Fn K) (R : Rng K G) (w : World G) :
    (∀ mMin a sig, Alone (fun ms => (keating16 fn R (.many ms) mMin a false sig w).1)) ∧
    (∀ d a b r sig, Alone (fun xs => (li16 fn R (.many xs) d a b r false sig w).1)) ∧
    (∀ d, Alone (fun ms => (lidz11 R (.many ms) d false w).1)) ∧
    (∀ d a b r sig, Alone (fun xs => (hcnGao fn R (.many xs) d a b r false sig w).1)) ∧
    (∀ d, Alone (fun ms => (hcnBreysse fn R (.many ms) d false w).1)) ∧
    (∀ line set fix, deloozeCheck line set = .ok () → (deloozeFit (K := K) line set).isSome →
      Alone (fun xs => (delooze14 fn R (.many xs) line set false fix w).1)) ∧
    (∀ unit d line sig, (uzgilFit (K := K) line).isSome →
      Alone (fun xs => (firModel fn R uzgilFit unit (.many xs) d line false sig w).1)) ∧
    (∀ unit d line sig, (spinoglioFit (K := K) line).isSome →
      Alone (fun xs => (firModel fn R spinoglioFit unit (.many xs) d line false sig w).1)) ∧
    (∀ d sig, Alone (fun xs => (zhao13 fn R (.many xs) d false sig w).1)) ∧
    (∀ m1 b n1 a sig, Alone (fun xs => (padmanabhan19 fn R (.many (xs.map Prod.fst))
      (.many (xs.map Prod.snd)) m1 b n1 a false sig w).1)) ∧
    (∀ fit line fix, line ∈ ["CII", "CO1-0", "CO2-1", "CO3-2", "CO4-3", "CO5-4"] →
      Alone (fun xs => (yang22 fn R fit (.many (xs.map Prod.fst))
        (.many (xs.map Prod.snd)) line false false fix w).1)) := by
  refine ⟨?_, ?_, ?_, ?_, ?_, ?_, ?_, ?_, ?_, ?_, ?_⟩
  · intro mMin a sig xs
    refine ⟨xs.map (fun m => if m < mMin then 0 else a * m), ?_, by simp, ?_⟩
    · simp only [keating16, scatterOwn_off, Except.map, cutBelow, Arg.list, Except.ok.injEq,
        Arg.many.injEq]
      induction xs with
      | nil => rfl
      | cons x xs ih => simp [ih]
    · intro i x hx
      exact ⟨if x < mMin then 0 else a * x, by simp [hx], rfl⟩
  · intro d a b r sig; exact alone_map _
  · intro d; exact alone_map _
  · intro d a b r sig; exact alone_map _
  · intro d; exact alone_map _
  · intro line set fix h1 h2
    obtain ⟨f, hf⟩ := Option.isSome_iff_exists.1 h2
    have : (fun xs => (delooze14 fn R (.many xs) line set false fix w).1)
        = fun xs => .ok (.many (xs.map (fun s => fn.pow 10 ((fn.log10 s - f.b) / f.m)))) := by
      funext xs
      simp only [delooze14, h1, hf]
      rfl
    rw [this]; exact alone_map _
  · intro unit d line sig h
    obtain ⟨⟨a, b⟩, hf⟩ := Option.isSome_iff_exists.1 h
    have : (fun xs => (firModel fn R uzgilFit unit (.many xs) d line false sig w).1)
        = fun xs => .ok (.many (xs.map (firMean fn unit d a b))) := by
      funext xs
      simp only [firModel, hf]
      rfl
    rw [this]; exact alone_map _
  · intro unit d line sig h
    obtain ⟨⟨a, b⟩, hf⟩ := Option.isSome_iff_exists.1 h
    have : (fun xs => (firModel fn R spinoglioFit unit (.many xs) d line false sig w).1)
        = fun xs => .ok (.many (xs.map (firMean fn unit d a b))) := by
      funext xs
      simp only [firModel, hf]
      rfl
    rw [this]; exact alone_map _
  · intro d sig; exact alone_map _
  · intro m1 b n1 a sig
    have : (fun xs : List (K × K) => (padmanabhan19 fn R (.many (xs.map Prod.fst))
      (.many (xs.map Prod.snd)) m1 b n1 a false sig w).1) = fun xs =>
        zipA (padMean fn m1 b n1 a) (.many (xs.map Prod.fst)) (.many (xs.map Prod.snd)) := by
      funext xs
      unfold padmanabhan19
      rcases zipA (padMean fn m1 b n1 a) (.many (xs.map Prod.fst)) (.many (xs.map Prod.snd)) with e | l
        <;> rfl
    rw [this]; exact alone_zip _
  · intro fit line fix hline
    obtain ⟨kind, hkind, hci⟩ : ∃ kind, yangLine line = .ok kind ∧ kind ≠ .ci := by
      simp only [List.mem_cons, List.not_mem_nil, or_false] at hline
      rcases hline with rfl | rfl | rfl | rfl | rfl | rfl
      · exact ⟨.cii, rfl, by decide⟩
      all_goals exact ⟨.co, rfl, by decide⟩
    have : (fun xs : List (K × K) => (yang22 fn R fit (.many (xs.map Prod.fst))
        (.many (xs.map Prod.snd)) line false false fix w).1) = fun xs =>
        zipA (fun m x => yangMean fn (fit line x) m) (.many (xs.map Prod.fst))
          (.many (xs.map Prod.snd)) := by
      funext xs
      rw [yang_noduty, hkind]
      have hfit : yangFit fit line kind (.many (xs.map Prod.snd)) = .ok (.many (xs.map Prod.snd),
          .many ((xs.map Prod.snd).map (fun x => (fit line x).sig))) := by
        cases kind <;> first | rfl | exact absurd rfl hci
      simp only
      rw [hfit]
      simp only
      rcases zipA (fun m x => yangMean fn (fit line x) m) (.many (xs.map Prod.fst))
          (.many (xs.map Prod.snd)) with e | l <;> rfl
    rw [this]; exact alone_zip _

/-! ## C89 -/

theorem scatter_accepts (fn : Fn K) {R : Rng K G} (hR : Lawful R) (on : Bool) (x : Arg K) (d : K)
    (p : Bool) (w : World G) :
    ∃ y, (scatterOwn fn R on x (.one d) p w).1 = .ok y ∧ y.size = x.size := by
  obtain ⟨y, h1, h2, h3⟩ := scatterOwn_one fn hR on x d p w
  refine ⟨y, h1, ?_⟩
  cases x with
  | one v => obtain ⟨u, rfl⟩ := h2 v rfl; rfl
  | many xs => obtain ⟨ys, rfl, hl⟩ := h3 xs rfl; exact hl

/-- The documented sets of `delooze14` work, but for `comp/agn`. -/
theorem C89_delooze_partial (fn : Fn K) (R : Rng K G) (hR : Lawful R) (sfr : Arg K) (line : String)
    (set : Option String) (scatter : Bool) (fix : Option K) (w : World G)
    (hdoc : DeloozeDoc line set) (hset : set ≠ some "comp/agn") :
    ∃ y, (delooze14 fn R sfr line set scatter fix w).1 = .ok y ∧ y.size = sfr.list.length := by
  have h1 : deloozeCheck line set = .ok () ∧ (deloozeFit (K := K) line set).isSome = true := by
    rcases hdoc with ⟨h1, h2⟩ | ⟨rfl, rfl⟩
    · simp only [List.mem_cons, List.not_mem_nil, or_false] at h1 h2
      rcases h1 with rfl | rfl | rfl <;> rcases h2 with rfl | rfl | rfl | rfl | rfl <;>
        first
          | exact ⟨rfl, rfl⟩
          | exact absurd rfl hset
    · exact ⟨rfl, rfl⟩
  obtain ⟨f, hf⟩ := Option.isSome_iff_exists.1 h1.2
  simp only [delooze14, h1.1, hf]
  obtain ⟨y, a, b⟩ := scatter_accepts fn hR scatter
    (.many (sfr.list.map (fun s => fn.pow 10 ((fn.log10 s - f.b) / f.m)))) (fix.getD f.sigma) false w
  exact ⟨y, a, by rw [b]; simp [Arg.size]⟩

/-- `comp/agn` never does. -/
theorem C89_comp_agn (fn : Fn K) (R : Rng K G) (sfr : Arg K) (line : String) (scatter : Bool)
    (fix : Option K) (w : World G) :
    (delooze14 fn R sfr line (some "comp/agn") scatter fix w).1 = .error .valueError := by
  have : deloozeCheck line (some "comp/agn") = .error .valueError := by
    unfold deloozeCheck
    split
    · rfl
    · simp only
      rw [if_pos (by decide), if_neg (by rintro ⟨-, h⟩; exact absurd h (by decide))]
  simp [delooze14, this]

/-- The documented lines of `uzgil14` and `spinoglio12` work, but for two. -/
theorem C89_fir_partial (fn : Fn K) (R : Rng K G) (hR : Lawful R) (unit : K) (sfr : Arg K) (dMf : K)
    (line : String) (scatter : Bool) (sig : K) (w : World G) (hdoc : line ∈ firDoc)
    (h1 : line ≠ "[SiIII]33um") (h2 : line ≠ "[SiIII]19um") :
    (∃ y, ((Call.uzgil14 unit sfr dMf line scatter sig).run fn R w).1 = .ok (.val y) ∧
      y.size = sfr.list.length) ∧
    (∃ y, ((Call.spinoglio12 unit sfr dMf line scatter sig).run fn R w).1 = .ok (.val y) ∧
      y.size = sfr.list.length) := by
  have hf : (uzgilFit (K := K) line).isSome = true ∧ (spinoglioFit (K := K) line).isSome = true := by
    simp only [firDoc, List.mem_cons, List.not_mem_nil, or_false] at hdoc
    rcases hdoc with rfl | rfl | rfl | rfl | rfl | rfl | rfl | rfl | rfl | rfl <;>
      first
        | exact ⟨rfl, rfl⟩
        | exact absurd rfl h1
        | exact absurd rfl h2
  obtain ⟨⟨a, b⟩, hu⟩ := Option.isSome_iff_exists.1 hf.1
  obtain ⟨⟨a', b'⟩, hs⟩ := Option.isSome_iff_exists.1 hf.2
  constructor
  · obtain ⟨y, e, e'⟩ := scatter_accepts fn hR scatter
      (.many (sfr.list.map (firMean fn unit dMf a b))) sig false w
    refine ⟨y, ?_, by rw [e']; simp [Arg.size]⟩
    simp only [Call.run, given, firModel, hu, e]
    rfl
  · obtain ⟨y, e, e'⟩ := scatter_accepts fn hR scatter
      (.many (sfr.list.map (firMean fn unit dMf a' b'))) sig false w
    refine ⟨y, ?_, by rw [e']; simp [Arg.size]⟩
    simp only [Call.run, given, firModel, hs, e]
    rfl

/-- The other two never do. -/
theorem C89_silicon (fn : Fn K) (R : Rng K G) (unit : K) (sfr : Arg K) (dMf : K) (line : String)
    (scatter : Bool) (sig : K) (w : World G) (h : line = "[SiIII]33um" ∨ line = "[SiIII]19um") :
    ((Call.uzgil14 unit sfr dMf line scatter sig).run fn R w).1 = .error .unboundLocal ∧
    ((Call.spinoglio12 unit sfr dMf line scatter sig).run fn R w).1 = .error .unboundLocal := by
  rcases h with rfl | rfl <;> exact ⟨rfl, rfl⟩

/-- The documented sets of `schaerer20` work. -/
theorem C89_schaerer (fn : Fn K) (R : Rng K G) (hR : Lawful R) (sfr : Arg K) (set : Option String)
    (scatter : Bool) (sig : K) (w : World G) (hdoc : set ∈ schaererDoc) :
    ∃ y, (schaerer20 fn R sfr set scatter sig w).1 = .ok y ∧ y.size = sfr.size := by
  have : ∃ f : K → K, ∀ x : Arg K, schaerer20 fn R x set scatter sig w
      = scatterOwn fn R scatter (x.map f) (.one sig) false w := by
    simp only [schaererDoc, List.mem_cons, List.not_mem_nil, or_false] at hdoc
    rcases hdoc with rfl | rfl | rfl | rfl | rfl <;> exact ⟨_, fun x => rfl⟩
  obtain ⟨f, hf⟩ := this
  obtain ⟨y, e, e'⟩ := scatter_accepts fn hR scatter (sfr.map f) sig false w
  refine ⟨y, by rw [hf, e], ?_⟩
  rw [e']
  cases sfr <;> simp [Arg.map, Arg.size]

/-- No line of `kamenetzky16` works. -/
theorem C89_kamenetzky (fn : Fn K) (R : Rng K G) (sfr : Arg K) (lines : List ℤ) (w : World G) :
    ∃ e, ((Call.kamenetzky16 sfr lines).run fn R w).1 = .error e := by
  simp only [Call.run, given, kamenetzky16]
  split
  · exact ⟨_, rfl⟩
  · cases sfr <;> exact ⟨_, rfl⟩

/-- The documented lines of `yang22` work for arrays, but for the lines of CI. -/
theorem C89_yang_partial (fn : Fn K) (R : Rng K G) (hR : Lawful R) (fit : String → K → YFit K)
    (masses zs : List K) (line : String) (fduty scatter : Bool) (fix : Option K) (w : World G)
    (hdoc : line ∈ yangDoc) (h1 : line ≠ "CI1-0") (h2 : line ≠ "CI2-1")
    (hlen : zs.length = masses.length) :
    ∃ ls, (yang22 fn R fit (.many masses) (.many zs) line fduty scatter fix w).1 = .ok (.many ls) ∧
      ls.length = masses.length := by
  have hline : line ∈ ["CII", "CO1-0", "CO2-1", "CO3-2", "CO4-3", "CO5-4"] := by
    simp only [yangDoc, List.mem_cons, List.not_mem_nil, or_false] at hdoc ⊢
    tauto
  obtain ⟨b, a, e1, e2, e3, e4⟩ := C45_yang_duty fn R hR fit masses zs line scatter fix w hline hlen
  cases fduty
  · exact ⟨b, e1, e3⟩
  · exact ⟨a, e2, by rw [e4.1, e3]⟩

/-- The lines of CI never do. -/
theorem C89_yang_ci (fn : Fn K) (R : Rng K G) (fit : String → K → YFit K) (mass z : Arg K)
    (line : String) (fduty scatter : Bool) (fix : Option K) (w : World G)
    (h : line = "CI1-0" ∨ line = "CI2-1") :
    (yang22 fn R fit mass z line fduty scatter fix w).1 = .error .indexError := by
  have hk : yangLine line = .ok .ci := by rcases h with rfl | rfl <;> rfl
  unfold yang22
  rw [hk]
  simp [yangFit]

/-- The lines of CO do not for a redshift that is a number. -/
theorem C89_yang_co_number (fn : Fn K) (R : Rng K G) (fit : String → K → YFit K) (mass : Arg K)
    (z : K) (line : String) (fduty scatter : Bool) (fix : Option K) (w : World G)
    (h : line ∈ ["CO1-0", "CO2-1", "CO3-2", "CO4-3", "CO5-4"]) :
    (yang22 fn R fit mass (.one z) line fduty scatter fix w).1 = .error .typeError := by
  have hk : yangLine line = .ok .co := by
    simp only [List.mem_cons, List.not_mem_nil, or_false] at h
    rcases h with rfl | rfl | rfl | rfl | rfl <;> rfl
  unfold yang22
  rw [hk]
  simp [yangFit]

/-- For a single halo given by two numbers, CII works with the duty cycle only if there is scatter of
the model's own width. -/
theorem C89_yang_cii_number (fn : Fn K) (R : Rng K G) (hR : Lawful R) (fit : String → K → YFit K)
    (m z : K) (scatter : Bool) (fix : Option K) (w : World G) :
    (∃ y, (yang22 fn R fit (.one m) (.one z) "CII" true scatter fix w).1 = .ok y) ↔
      (scatter = true ∧ fix = none) := by
  have hk : yangLine "CII" = .ok .cii := rfl
  unfold yang22
  rw [hk]
  simp only [yangFit, zipA]
  cases scatter with
  | false => simp [scatterOwn_off, yangSwitch, yangFduty]
  | true =>
    have hn := hR.normal 1 w.own
    match hz : (R.normal 1 w.own).1, hn with
    | [a], _ =>
      cases fix with
      | some d =>
        simp [scatterOwn, log10normal, centre, Arg.size, hz, shaped, spread, zipA, yangSwitch, yangFduty]
      | none =>
        have hu := hR.uniform 1 w.glob
        match hu' : (R.uniform 1 w.glob).1, hu with
        | [u], _ =>
          simp [scatterOwn, log10normal, centre, Arg.size, hz, shaped, spread, zipA, yangSwitch,
            yangFduty, switchOff, hu', Arg.list, zipL, Except.map]

/-- C89 as stated. -/
def C89_full : Prop :=
  ∀ (fn : Fn ℚ) (R : Rng ℚ ℕ) (fit : String → ℚ → YFit ℚ), Lawful R → ∀ (x z : Arg ℚ) (w : World ℕ),
    x.list.length = z.list.length →
    (∀ line set, DeloozeDoc line set → ∀ s fix, ∃ y, (delooze14 fn R x line set s fix w).1 = .ok y) ∧
    (∀ line ∈ firDoc, ∀ unit d s sig, ∃ y,
      ((Call.uzgil14 unit x d line s sig).run fn R w).1 = .ok (.val y)) ∧
    (∀ line ∈ yangDoc, ∀ f s fix, ∃ y, (yang22 fn R fit x z line f s fix w).1 = .ok y) ∧
    (∀ lines : List ℤ, (∀ l ∈ lines, 1 ≤ l ∧ l ≤ 13) → ∃ y, (kamenetzky16 x lines w).1 = .ok y)

theorem C89_full_false : ¬ C89_full := by
  intro H
  obtain ⟨-, h, -, -⟩ := H ratFn counter (fun _ _ => ⟨0, 0, 0, 0, 0⟩) counter_lawful (.many [1])
    (.many [1]) ⟨0, 0, 0⟩ rfl
  obtain ⟨y, hy⟩ := h "[SiIII]33um" (by decide) 1 1 false 1
  rw [(C89_silicon ratFn counter 1 (.many [1]) 1 _ false 1 ⟨0, 0, 0⟩ (Or.inl rfl)).1] at hy
  cases hy

/-! ## C90 -/

theorem zipL_together {α β γ : Type} (f : α → β → γ) (xs : List α) (ys : List β) (zs : List γ)
    (h : zipL f xs ys = .ok zs) : zs.length = together xs.length ys.length := by
  unfold zipL at h
  unfold together
  split at h
  · rename_i hl
    simp only [Except.ok.injEq] at h; subst h
    simp only [List.length_zipWith]
    split <;> omega
  · rename_i hl
    split at h
    · simp only [Except.ok.injEq] at h; subst h; simp
    · simp only [Except.ok.injEq] at h; subst h
      simp only [List.length_cons, List.length_nil] at hl
      rw [if_neg (by simpa using hl)]; simp
    · cases h

theorem zipA_together (f : K → K → K) (a b c : Arg K) (h : zipA f a b = .ok c) :
    c.size = together a.size b.size := by
  cases a <;> cases b <;> simp only [zipA, Except.ok.injEq] at h
  · subst h; simp [Arg.size, together]
  · subst h; simp [Arg.size, together]
  · subst h
    rename_i xs y
    by_cases hx : xs.length = 1 <;> simp [Arg.size, together, hx]
  · rename_i xs ys
    rcases hz : zipL f xs ys with e | zs
    · rw [hz] at h; cases h
    · rw [hz] at h
      simp only [Except.map, Except.ok.injEq] at h
      subst h
      exact zipL_together f xs ys zs hz

theorem together_one (n : ℕ) : together n 1 = n := by unfold together; split <;> omega

theorem one_together (n : ℕ) : together 1 n = n := by simp [together]

theorem together_self (n : ℕ) : together n n = n := by simp [together]

theorem shaped_size {R : Rng K G} (hR : Lawful R) (mu : Arg K) (g : G) :
    (shaped mu (R.normal mu.size g).1).size = mu.size := by
  cases mu with
  | one x =>
    match hz : (R.normal (Arg.one x).size g).1, hR.normal (Arg.one x).size g with
    | [z], _ => rfl
  | many xs => simp [shaped, Arg.size, hR.normal]

theorem scatterOwn_size (fn : Fn K) {R : Rng K G} (hR : Lawful R) (on : Bool) (x d y : Arg K)
    (p : Bool) (w : World G) (h : (scatterOwn fn R on x d p w).1 = .ok y)
    (hd : together d.size x.size = x.size ∧ (p = true → together x.size d.size = x.size)) :
    y.size = x.size := by
  unfold scatterOwn at h
  cases on
  · simp only [Bool.false_eq_true, if_false, Except.ok.injEq] at h; rw [h]
  · simp only [if_true, log10normal] at h
    rcases hc : centre fn x d p with e | mu
    · rw [hc] at h; cases h
    · rw [hc] at h
      have hmu : mu.size = x.size := by
        unfold centre at hc
        cases p
        · simp only [Bool.false_eq_true, if_false, Except.ok.injEq] at hc; rw [hc]
        · simp only [if_true] at hc
          rw [zipA_together _ _ _ _ hc]; exact hd.2 rfl
      simp only [spread] at h
      rcases ht : zipA (fun d z => d * z) d (shaped mu (R.normal mu.size w.own).1) with e | t
      · rw [ht] at h; cases h
      · rw [ht] at h
        simp only at h
        rw [zipA_together _ _ _ _ h, zipA_together _ _ _ _ ht, shaped_size hR, hmu, hd.1, together_self]

theorem Arg.size_list (a : Arg K) : a.list.length = a.size := by cases a <;> rfl

theorem Arg.size_map (f : K → K) (a : Arg K) : (a.map f).size = a.size := by
  cases a <;> simp [Arg.map, Arg.size]

theorem switchOff_length (ls fs qs zs : List K) (h : switchOff ls fs qs = .ok zs) :
    zs.length = ls.length := by
  unfold switchOff at h
  rcases hm : zipL (fun f q => decide (f > q)) fs qs with e | mask
  · rw [hm] at h; cases h
  · rw [hm] at h
    simp only at h
    split at h
    · rename_i hl
      simp only [Except.ok.injEq] at h
      subst h
      simp [hl]
    · cases h

theorem given_ok {r : Except Err (Arg K) × World G} {o : Out K} (h : (given r).1 = .ok o) :
    ∃ a, r.1 = .ok a ∧ o = .val a := by
  rcases hr : r.1 with e | a
  · simp [given, hr, Except.map] at h
  · simp only [given, hr, Except.map, Except.ok.injEq] at h
    exact ⟨a, rfl, h.symm⟩

theorem zipA_fits (f : K → K → K) (a b c : Arg K) (h : zipA f a b = .ok c) :
    a.size = 1 ∨ b.size = 1 ∨ a.size = b.size := by
  cases a with
  | one x => left; rfl
  | many xs =>
    cases b with
    | one y => right; left; rfl
    | many ys =>
      simp only [zipA] at h
      unfold zipL at h
      split at h
      · rename_i hl; right; right; exact hl
      · split at h
        · left; rfl
        · right; left; rfl
        · cases h

theorem ndmin1_ok {r : Except Err (Arg K) × World G} {a : Arg K} (h : (ndmin1 r).1 = .ok a) :
    ∃ b, r.1 = .ok b ∧ a = .many b.list := by
  rcases hr : r.1 with e | b
  · simp [ndmin1, hr, Except.map] at h
  · simp only [ndmin1, hr, Except.map, Except.ok.injEq] at h
    exact ⟨b, rfl, h.symm⟩

theorem dutyModel_size {R : Rng K G} (hR : Lawful R) (mean : K → K) (mass : Arg K) (duty : K)
    (rand : Bool) (w : World G) (a : Arg K) (h : (dutyModel R mean mass duty rand w).1 = .ok a) :
    a.size = mass.size := by
  unfold dutyModel at h
  cases rand
  · simp only [Bool.false_eq_true, if_false, Except.ok.injEq] at h
    subst h
    rw [← Arg.size_list mass]; simp [Arg.size]
  · simp only [if_true, Except.ok.injEq] at h
    subst h
    rw [← Arg.size_list mass]; simp [Arg.size, switchOn, hR.uniform]

/-- The widths used by `yang22` have the shape of the redshifts, which are stretched with them. -/
theorem yangFit_size (fit : String → K → YFit K) (line : String) (kind : YLine) (z zs sig : Arg K)
    (h : yangFit fit line kind z = .ok (zs, sig)) : zs = z ∧ sig.size = z.size := by
  cases kind <;> cases z <;> simp only [yangFit, Except.ok.injEq, Prod.mk.injEq, reduceCtorEq] at h
  all_goals
    obtain ⟨rfl, rfl⟩ := h
    exact ⟨rfl, by simp [Arg.size]⟩

/-- A call of any of the functions, except those of `sfr_behroozi13` before the set-up, that is not
ended by an exception gives one value for every galaxy. -/
theorem C90_one_each_partial (fn : Fn K) (R : Rng K G) (hR : Lawful R) (c : Call K)
    (hc : ¬ NotSetUp c) (w : World G) (o : Out K) (h : (c.run fn R w).1 = .ok o) :
    ∃ a, o = .val a ∧ a.size = galaxies c := by
  have hone : ∀ (x : Arg K) (d : K) (p : Bool), together (Arg.one d).size x.size = x.size ∧
      (p = true → together x.size (Arg.one d).size = x.size) :=
    fun x d p => ⟨one_together _, fun _ => together_one _⟩
  cases c with
  | keating16 mass mMin a s sig =>
    obtain ⟨v, hv, rfl⟩ := given_ok h
    refine ⟨v, rfl, ?_⟩
    simp only [keating16] at hv
    rcases hs : (scatterOwn fn R s (.many (mass.list.map (fun m => a * m))) (.one sig) false w).1
      with e | l
    · rw [hs] at hv; cases hv
    · have := scatterOwn_size fn hR s _ _ l false w hs (hone _ _ _)
      rw [hs] at hv
      simp only [Except.map, Except.ok.injEq] at hv
      subst hv
      have hl : l.list.length = mass.list.length := by
        rw [Arg.size_list, this]; simp [Arg.size]
      show (cutBelow mMin mass.list l.list).length = mass.size
      rw [← Arg.size_list mass]
      simp [cutBelow, hl]
  | li16 sfr d a b r s sig =>
    obtain ⟨v, hv, rfl⟩ := given_ok h
    obtain ⟨u, hu, rfl⟩ := ndmin1_ok hv
    refine ⟨_, rfl, ?_⟩
    show u.list.length = sfr.size
    rw [Arg.size_list, scatterOwn_size fn hR s _ _ u true w hu (hone _ _ _), Arg.size_map]
  | pullen13 age mass z r l =>
    obtain ⟨v, hv, rfl⟩ := given_ok h
    refine ⟨v, rfl, ?_⟩
    have hlf : (fDuty age l z).length = z.size := by
      rw [← Arg.size_list z]; simp [fDuty, ages_length]
    show v.size = together mass.size z.size
    rw [← Arg.size_list mass]
    unfold pullen13 at hv
    cases r
    · simp only [Bool.false_eq_true, if_false] at hv
      unfold scaleBy at hv
      split at hv
      · rename_i hl
        simp only [Except.map, Except.ok.injEq] at hv
        subst hv
        simp only [List.length_map] at hl
        rw [← hlf, ← hl, together_self]
        simp [Arg.size, hl]
      · split at hv
        · rename_i q hq
          simp only [Except.map, Except.ok.injEq] at hv
          subst hv
          rw [hq] at hlf
          rw [← hlf]
          simp only [List.length_cons, List.length_nil, Nat.zero_add, together_one]
          simp [Arg.size]
        · cases hv
    · simp only [if_true] at hv
      rcases hs : switchOff (mass.list.map pullenMean) (R.uniform mass.list.length w.own).1
          (fDuty age l z) with e | zs
      · rw [hs] at hv; cases hv
      · have hlen := switchOff_length _ _ _ _ hs
        rw [hs] at hv
        simp only [Except.map, Except.ok.injEq] at hv
        subst hv
        simp only [List.length_map] at hlen
        show zs.length = _
        rw [hlen]
        unfold switchOff at hs
        rcases hm : zipL (fun f q => decide (f > q)) (R.uniform mass.list.length w.own).1
          (fDuty age l z) with e | mask
        · rw [hm] at hs; cases hs
        · rw [hm] at hs
          simp only at hs
          have := zipL_together _ _ _ _ hm
          rw [hR.uniform, hlf] at this
          split at hs
          · rename_i hml
            rw [← this, hml]; simp
          · cases hs
  | lidz11 mass d r =>
    obtain ⟨v, hv, rfl⟩ := given_ok h
    exact ⟨v, rfl, dutyModel_size hR _ mass d r w v hv⟩
  | kamenetzky16 sfr lines =>
    obtain ⟨e, he⟩ := C89_kamenetzky fn R sfr lines w
    rw [he] at h; cases h
  | hcnGao sfr d a b r s sig =>
    obtain ⟨v, hv, rfl⟩ := given_ok h
    obtain ⟨u, hu, rfl⟩ := ndmin1_ok hv
    refine ⟨_, rfl, ?_⟩
    show u.list.length = sfr.size
    rw [Arg.size_list, scatterOwn_size fn hR s _ _ u true w hu (hone _ _ _), Arg.size_map]
  | hcnBreysse mass d r =>
    obtain ⟨v, hv, rfl⟩ := given_ok h
    exact ⟨v, rfl, dutyModel_size hR _ mass d r w v hv⟩
  | delooze14 sfr line set s fix =>
    obtain ⟨v, hv, rfl⟩ := given_ok h
    refine ⟨v, rfl, ?_⟩
    unfold delooze14 at hv
    rcases hk : deloozeCheck line set with e | u
    · rw [hk] at hv; cases hv
    · rw [hk] at hv
      simp only at hv
      rcases hf : deloozeFit (K := K) line set with _ | f
      · rw [hf] at hv; cases hv
      · rw [hf] at hv
        rw [scatterOwn_size fn hR s _ _ v false w hv (hone _ _ _)]
        show _ = sfr.size
        rw [← Arg.size_list sfr]; simp [Arg.size]
  | uzgil14 unit sfr d line s sig =>
    obtain ⟨v, hv, rfl⟩ := given_ok h
    refine ⟨v, rfl, ?_⟩
    unfold firModel at hv
    rcases hf : uzgilFit (K := K) line with _ | ⟨a, b⟩
    · rw [hf] at hv; cases hv
    · rw [hf] at hv
      rw [scatterOwn_size fn hR s _ _ v false w hv (hone _ _ _)]
      show _ = sfr.size
      rw [← Arg.size_list sfr]; simp [Arg.size]
  | spinoglio12 unit sfr d line s sig =>
    obtain ⟨v, hv, rfl⟩ := given_ok h
    refine ⟨v, rfl, ?_⟩
    unfold firModel at hv
    rcases hf : spinoglioFit (K := K) line with _ | ⟨a, b⟩
    · rw [hf] at hv; cases hv
    · rw [hf] at hv
      rw [scatterOwn_size fn hR s _ _ v false w hv (hone _ _ _)]
      show _ = sfr.size
      rw [← Arg.size_list sfr]; simp [Arg.size]
  | schaerer20 sfr set s sig =>
    obtain ⟨v, hv, rfl⟩ := given_ok h
    refine ⟨v, rfl, ?_⟩
    simp only [schaerer20] at hv
    split at hv
    · cases hv
    · rcases hf : schaererFit (K := K) (set.getD "ALPINE-uvirx") with _ | ⟨a, b⟩
      · rw [hf] at hv; cases hv
      · rw [hf] at hv
        rw [scatterOwn_size fn hR s _ _ v false w hv (hone _ _ _), Arg.size_map]
        rfl
  | zhao13 sfr d s sig =>
    obtain ⟨v, hv, rfl⟩ := given_ok h
    refine ⟨v, rfl, ?_⟩
    rw [scatterOwn_size fn hR s _ _ v false w hv (hone _ _ _), Arg.size_map]
    rfl
  | padmanabhan19 mass z m1 b n1 a s sig =>
    obtain ⟨v, hv, rfl⟩ := given_ok h
    refine ⟨v, rfl, ?_⟩
    unfold padmanabhan19 at hv
    rcases hl : zipA (padMean fn m1 b n1 a) mass z with e | l
    · rw [hl] at hv; cases hv
    · rw [hl] at hv
      simp only at hv
      have hsz := zipA_together _ _ _ _ hl
      cases s
      · simp only [Bool.false_eq_true, if_false, Except.ok.injEq] at hv
        subst hv; exact hsz
      · cases sig with
        | none => cases hv
        | some d =>
          rw [scatterOwn_size fn hR true _ _ v true w hv (hone _ _ _)]; exact hsz
  | yang22 fit mass z line f s fix =>
    obtain ⟨v, hv, rfl⟩ := given_ok h
    refine ⟨v, rfl, ?_⟩
    unfold yang22 at hv
    rcases hk : yangLine line with e | kind
    · rw [hk] at hv; cases hv
    · rw [hk] at hv
      simp only at hv
      rcases hf : yangFit fit line kind z with e | ⟨zs, sig⟩
      · rw [hf] at hv; cases hv
      · rw [hf] at hv
        simp only at hv
        obtain ⟨rfl, hsig⟩ := yangFit_size fit line kind z zs sig hf
        rcases hl : zipA (fun m x => yangMean fn (fit line x) m) mass zs with e | l
        · rw [hl] at hv; cases hv
        · rw [hl] at hv
          simp only at hv
          have hsz := zipA_together _ _ _ _ hl
          rcases hs : scatterOwn fn R s l (fix.elim sig .one) false w with ⟨e | l', w'⟩
          · rw [hs] at hv; cases hv
          · rw [hs] at hv
            simp only at hv
            have hl' : l'.size = together mass.size zs.size := by
              have hfit := zipA_fits _ _ _ _ hl
              have := scatterOwn_size fn hR s l (fix.elim sig .one) l' false w (by rw [hs])
                ⟨by
                  cases fix with
                  | some d => exact one_together _
                  | none =>
                    show together sig.size l.size = l.size
                    rw [hsig, hsz]
                    unfold together
                    split <;> split <;> omega, by simp⟩
              rw [this]; exact hsz
            cases f
            · simp only [Bool.false_eq_true, if_false, Except.ok.injEq] at hv
              subst hv; exact hl'
            · simp only [if_true, yangSwitch] at hv
              rcases hd : yangFduty fn mass zs with e | q
              · rw [hd] at hv; cases hv
              · rw [hd] at hv
                simp only at hv
                cases l' with
                | one x => cases hv
                | many ls =>
                  simp only at hv
                  rcases ho : switchOff ls (R.uniform ls.length w'.glob).1 q with e | r
                  · rw [ho] at hv; cases hv
                  · rw [ho] at hv
                    simp only [Except.map, Except.ok.injEq] at hv
                    subst hv
                    have := switchOff_length _ _ _ _ ho
                    show r.length = _
                    rw [this]; exact hl'
  | behroozi p ev z mass s sig =>
    simp only [Call.run, behroozi] at h
    cases p with
    | false => exact absurd rfl hc
    | true =>
      simp only [Bool.not_true, Bool.false_eq_true, if_false] at h
      rcases hl : zipA ev z mass with e | l
      · rw [hl] at h; cases h
      · rw [hl] at h
        simp only at h
        have hsz := zipA_together _ _ _ _ hl
        cases s
        · simp only [Bool.false_eq_true, if_false, Except.ok.injEq] at h
          subst h; exact ⟨l, rfl, hsz⟩
        · simp only [if_true] at h
          rcases hr : (log10normal fn R l (.one sig) true w.deflt).1 with e | y
          · rw [hr] at h; cases h
          · rw [hr] at h
            simp only [Except.map, Except.ok.injEq] at h
            subst h
            refine ⟨y, rfl, ?_⟩
            have := scatterOwn_size fn hR true l (.one sig) y true ⟨w.deflt, w.deflt, w.glob⟩
              (by simpa [scatterOwn] using hr) (hone _ _ _)
            rw [this]; exact hsz

/-- Before the set-up the functions of `sfr_behroozi13` give an exception object, whatever the
arguments; nothing is raised. -/
theorem C90_exception_returned (fn : Fn K) (R : Rng K G) (ev : K → K → K) (z mass : Arg K)
    (scatter : Bool) (sig : K) (w : World G) :
    (Call.behroozi false ev z mass scatter sig).run fn R w = (.ok (.excObject .valueError), w) := rfl

/-- C90 as stated. -/
def C90_full : Prop :=
  ∀ (fn : Fn ℚ) (R : Rng ℚ ℕ), Lawful R → ∀ (c : Call ℚ) (w : World ℕ) (o : Out ℚ),
    (c.run fn R w).1 = .ok o → ∃ a, o = .val a ∧ a.size = galaxies c

theorem C90_full_false : ¬ C90_full := by
  intro H
  obtain ⟨a, h, -⟩ := H ratFn counter counter_lawful
    (.behroozi false (fun _ _ => 1) (.one 1) (.one 1) false 1) ⟨0, 0, 0⟩ _ rfl
  cases h

end Verif.Gal
