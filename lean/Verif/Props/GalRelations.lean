import Verif.Spec.GalRelations
import Verif.Props.GalAverage

set_option linter.unusedSectionVars false

/-!
# Luminosities follow the published relations for all parameters
-/

namespace Verif.Gal

open MeasureTheory ProbabilityTheory Spec

variable {G : Type}

theorem lg_pow (y : ℝ) : lg (10 ^ y) = y := by
  unfold lg
  rw [Real.log_rpow (by norm_num), mul_div_assoc, div_self log_ten.ne', mul_one]

theorem lg_mul {x y : ℝ} (hx : x ≠ 0) (hy : y ≠ 0) : lg (x * y) = lg x + lg y := by
  unfold lg
  rw [Real.log_mul hx hy, add_div]

theorem lg_lt {x y : ℝ} (hx : 0 < x) (hy : 0 < y) : lg x < lg y ↔ x < y := by
  unfold lg
  rw [div_lt_div_iff_of_pos_right log_ten, Real.log_lt_log_iff hx hy]

theorem ten_pos (y : ℝ) : (0 : ℝ) < 10 ^ y := Real.rpow_pos_of_pos (by norm_num) y

/-- The values of a relation applied to each galaxy. -/
theorem each_value (f : ℝ → ℝ) (law : ℝ → ℝ → Prop) (xs : List ℝ) (hpos : ∀ x ∈ xs, 0 < x)
    (h : ∀ x, 0 < x → 0 < f x ∧ law x (f x)) :
    (xs.map f).length = xs.length ∧
      ∀ (i : ℕ) (x : ℝ), xs[i]? = some x → ∃ L, (xs.map f)[i]? = some L ∧ 0 < L ∧ law x L := by
  refine ⟨by simp, fun i x hx => ⟨f x, by simp [hx], h x (hpos x (List.mem_of_getElem? hx))⟩⟩

theorem map_list (f : ℝ → ℝ) (x : Arg ℝ) : (x.map f).list = x.list.map f := by
  cases x <;> rfl

theorem deloozeFit_of {line : String} {set : Option String} {m b s : ℝ}
    (h : (line, set, m, b, s) ∈ deloozeTable) :
    deloozeFit (K := ℝ) line set = some ⟨m, b, s⟩ ∧ deloozeCheck line set = .ok () ∧ 0 < m := by
  simp only [deloozeTable, List.mem_cons, Prod.mk.injEq, List.not_mem_nil, or_false] at h
  rcases h with h | h | h | h | h | h | h | h | h | h | h | h | h | h | h | h <;>
    obtain ⟨rfl, rfl, rfl, rfl, rfl⟩ := h <;>
    (refine ⟨?_, by simp [deloozeCheck], by norm_num⟩; simp only [deloozeFit]; norm_num)

theorem uzgilFit_of {line : String} {a b : ℝ} (h : (line, a, b) ∈ uzgilTable) :
    uzgilFit (K := ℝ) line = some (a, b) ∧ 0 < a := by
  simp only [uzgilTable, List.mem_cons, Prod.mk.injEq, List.not_mem_nil, or_false] at h
  rcases h with h | h | h | h | h | h | h | h | h | h <;>
    obtain ⟨rfl, rfl, rfl⟩ := h <;>
    (refine ⟨?_, by norm_num⟩; simp only [uzgilFit]; norm_num)

theorem spinoglioFit_of {line : String} {a b : ℝ} (h : (line, a, b) ∈ spinoglioTable) :
    spinoglioFit (K := ℝ) line = some (a, b) ∧ 0 < a := by
  simp only [spinoglioTable, List.mem_cons, Prod.mk.injEq, List.not_mem_nil, or_false] at h
  rcases h with h | h | h | h | h | h | h | h | h | h <;>
    obtain ⟨rfl, rfl, rfl⟩ := h <;>
    (refine ⟨?_, by norm_num⟩; simp only [spinoglioFit]; norm_num)

theorem schaererFit_of {set : Option String} {m b : ℝ} (h : (set, m, b) ∈ schaererTable) :
    schaererFit (K := ℝ) (set.getD "ALPINE-uvirx") = some (m, b) ∧
      set.getD "ALPINE-uvirx" ∈ ["ALPINE-uvir", "ALPINE-sed", "ALPINE-uvirx", "high z-uvirx"] ∧ 0 < m := by
  simp only [schaererTable, List.mem_cons, Prod.mk.injEq, List.not_mem_nil, or_false] at h
  rcases h with h | h | h | h | h <;>
    obtain ⟨rfl, rfl, rfl⟩ := h <;>
    (refine ⟨?_, by simp, by norm_num⟩; simp only [Option.getD, schaererFit]; norm_num)

theorem infrared {x d : ℝ} (hd : 0 < d) : x = d * (x / d * 10 ^ 10) / 10 ^ 10 := by
  field_simp

theorem firMean_law (erf : ℝ → ℝ) {unit d a b : ℝ} (hu : 0 < unit) (hd : 0 < d) (x : ℝ) :
    0 < firMean (realFn erf) unit d a b x ∧ ∃ I, x = d * I / 10 ^ 10 ∧
      lg (firMean (realFn erf) unit d a b x * unit) = a * lg (I * unit) - b := by
  refine ⟨div_pos (ten_pos _) hu, x / d * 10 ^ 10, infrared hd, ?_⟩
  simp only [firMean, realFn]
  rw [div_mul_cancel₀ _ hu.ne', lg_pow]
  rfl

/-- **C140, values.** Without scatter, every galaxy with a positive star formation rate gets the positive
luminosity that the published relation gives, for all lines, galaxy sets and parameters. -/
theorem C140_relation (erf : ℝ → ℝ) (Q : Rng ℝ G) (w : World G) (call : Call ℝ) (sfr : Arg ℝ)
    (law : ℝ → ℝ → Prop) (h : Relation call sfr law) (hpos : ∀ x ∈ sfr.list, 0 < x) :
    ∃ y : Arg ℝ, ((plain call).run (realFn erf) Q w).1 = .ok (.val y) ∧ y.list.length = sfr.list.length ∧
      ∀ (i : ℕ) (x : ℝ), sfr.list[i]? = some x → ∃ L, y.list[i]? = some L ∧ 0 < L ∧ law x L := by
  cases h with
  | li _ d a b r sc s hd ha hr =>
    refine ⟨.many (sfr.list.map (liMean (realFn erf) d a b r)), ?_, each_value _ _ _ hpos fun x _ => ⟨?_, ?_⟩⟩
    · simp only [plain, Call.run, li16, given, ndmin1, scatterOwn_off, Except.map, map_list]
    · exact mul_pos (mul_pos (ten_pos _) (by norm_num)) (pow_pos hr 3)
    · refine ⟨x / d * 10 ^ 10, 10 ^ ((lg (x / d * 10 ^ 10) - b) / a), infrared hd, ?_, ?_⟩
      · rw [lg_pow]
        field_simp
        ring
      · simp only [liMean, realFn, lg]
        norm_num
        ring
  | gao _ d a b r sc s hd ha hr =>
    refine ⟨.many (sfr.list.map (gaoMean (realFn erf) d a b r)), ?_, each_value _ _ _ hpos fun x _ => ⟨?_, ?_⟩⟩
    · simp only [plain, Call.run, hcnGao, given, ndmin1, scatterOwn_off, Except.map, map_list]
    · exact mul_pos (mul_pos (ten_pos _) (by norm_num)) (pow_pos hr 3)
    · refine ⟨x / d * 10 ^ 10, 10 ^ ((lg (x / d * 10 ^ 10) - b) / a), infrared hd, ?_, ?_⟩
      · rw [lg_pow]
        field_simp
        ring
      · simp only [gaoMean, realFn, lg]
        norm_num
        ring
  | delooze _ line set sc fix m b s h =>
    obtain ⟨h1, h2, hm⟩ := deloozeFit_of h
    refine ⟨.many (sfr.list.map (fun x => (realFn erf).pow 10 (((realFn erf).log10 x - b) / m))), ?_,
      each_value _ _ _ hpos fun x _ => ⟨ten_pos _, ?_⟩⟩
    · simp only [plain, Call.run, delooze14, given, h1, h2, scatterOwn_off, Except.map]
    · show lg x = b + m * lg (10 ^ ((lg x - b) / m))
      rw [lg_pow]
      field_simp
      ring
  | uzgil unit _ d line sc s a b hu hd h =>
    obtain ⟨h1, ha⟩ := uzgilFit_of h
    refine ⟨.many (sfr.list.map (firMean (realFn erf) unit d a b)), ?_,
      each_value _ _ _ hpos fun x _ => firMean_law erf hu hd x⟩
    simp only [plain, Call.run, firModel, given, h1, scatterOwn_off, Except.map]
  | spinoglio unit _ d line sc s a b hu hd h =>
    obtain ⟨h1, ha⟩ := spinoglioFit_of h
    refine ⟨.many (sfr.list.map (firMean (realFn erf) unit d a b)), ?_,
      each_value _ _ _ hpos fun x _ => firMean_law erf hu hd x⟩
    simp only [plain, Call.run, firModel, given, h1, scatterOwn_off, Except.map]
  | schaerer _ set sc s m b h =>
    obtain ⟨h1, h2, hm⟩ := schaererFit_of h
    refine ⟨sfr.map (fun x => (realFn erf).pow 10 (m * (realFn erf).log10 x + b)), ?_, ?_⟩
    · simp only [plain, Call.run, schaerer20, given, h1, scatterOwn_off, Except.map]
      rw [if_neg (not_not.2 h2)]
    · rw [map_list]
      exact each_value _ _ _ hpos fun x _ => ⟨ten_pos _, lg_pow _⟩
  | zhao _ d sc s hd =>
    refine ⟨sfr.map (fun x => (realFn erf).pow 10 (((realFn erf).log10 (x * 10 ^ 10 / d) - 451 / 100) / (95 / 100))),
      ?_, ?_⟩
    · simp only [plain, Call.run, zhao13, given, scatterOwn_off, Except.map]
    · rw [map_list]
      refine each_value _ _ _ hpos fun x _ => ⟨ten_pos _, x * 10 ^ 10 / d, by field_simp, ?_⟩
      show lg (x * 10 ^ 10 / d) = 0.95 * lg (10 ^ ((lg (x * 10 ^ 10 / d) - 451 / 100) / (95 / 100))) + 4.51
      rw [lg_pow]
      ring

/-- **C140, order.** More star formation means more light, and the other way round; so the relation gives
only one luminosity. -/
theorem C140_more (call : Call ℝ) (sfr : Arg ℝ) (law : ℝ → ℝ → Prop) (h : Relation call sfr law)
    (x x' L L' : ℝ) (hx : 0 < x) (hx' : 0 < x') (hL : 0 < L) (hL' : 0 < L') (h1 : law x L) (h2 : law x' L') :
    x < x' ↔ L < L' := by
  have hI : ∀ {d I x : ℝ}, 0 < d → 0 < x → x = d * I / 10 ^ 10 → 0 < I := by
    intro d I x hd hx e
    have : 0 < d * I := by
      have := mul_pos hx (show (0 : ℝ) < 10 ^ 10 by norm_num)
      rw [e, div_mul_cancel₀ _ (by norm_num)] at this
      exact this
    exact (mul_pos_iff_of_pos_left hd).1 this
  have hxI : ∀ {d I J : ℝ}, 0 < d → (d * I / 10 ^ 10 < d * J / 10 ^ 10 ↔ I < J) := by
    intro d I J hd
    rw [div_lt_div_iff_of_pos_right (by norm_num), mul_lt_mul_iff_right₀ hd]
  have power : ∀ {d a b r c : ℝ}, 0 < d → 0 < a → 0 < r → 0 < c →
      (∃ I M, x = d * I / 10 ^ 10 ∧ lg I = a * lg M + b ∧ L = c * r ^ 3 * M) →
      (∃ I M, x' = d * I / 10 ^ 10 ∧ lg I = a * lg M + b ∧ L' = c * r ^ 3 * M) → (x < x' ↔ L < L') := by
    rintro d a b r c hd ha hr hc ⟨I, M, e1, e2, e3⟩ ⟨J, N, f1, f2, f3⟩
    have hcr : 0 < c * r ^ 3 := mul_pos hc (pow_pos hr 3)
    have hM : 0 < M := (mul_pos_iff_of_pos_left hcr).1 (e3 ▸ hL)
    have hN : 0 < N := (mul_pos_iff_of_pos_left hcr).1 (f3 ▸ hL')
    have i1 := hI hd hx e1
    have i2 := hI hd hx' f1
    rw [e1, f1, e3, f3, hxI hd, mul_lt_mul_iff_right₀ hcr, ← lg_lt i1 i2, e2, f2, ← lg_lt hM hN]
    constructor
    · intro q; exact lt_of_mul_lt_mul_left (by linarith) ha.le
    · intro q; linarith [mul_lt_mul_of_pos_left q ha]
  have far : ∀ {unit d a b : ℝ}, 0 < unit → 0 < d → 0 < a →
      (∃ I, x = d * I / 10 ^ 10 ∧ lg (L * unit) = a * lg (I * unit) - b) →
      (∃ I, x' = d * I / 10 ^ 10 ∧ lg (L' * unit) = a * lg (I * unit) - b) → (x < x' ↔ L < L') := by
    rintro unit d a b hu hd ha ⟨I, e1, e2⟩ ⟨J, f1, f2⟩
    have i1 := hI hd hx e1
    have i2 := hI hd hx' f1
    rw [e1, f1, hxI hd, ← mul_lt_mul_iff_left₀ hu (b := I), ← mul_lt_mul_iff_left₀ hu (b := L),
      ← lg_lt (mul_pos i1 hu) (mul_pos i2 hu), ← lg_lt (mul_pos hL hu) (mul_pos hL' hu), e2, f2]
    constructor
    · intro q; linarith [mul_lt_mul_of_pos_left q ha]
    · intro q; exact lt_of_mul_lt_mul_left (by linarith) ha.le
  cases h with
  | li _ d a b r sc s hd ha hr => exact power hd ha hr (by norm_num) h1 h2
  | gao _ d a b r sc s hd ha hr => exact power hd ha hr (by norm_num) h1 h2
  | delooze _ line set sc fix m b s h =>
    obtain ⟨-, -, hm⟩ := deloozeFit_of h
    rw [← lg_lt hx hx', ← lg_lt hL hL', h1, h2]
    constructor
    · intro q; exact lt_of_mul_lt_mul_left (by linarith) hm.le
    · intro q; linarith [mul_lt_mul_of_pos_left q hm]
  | uzgil unit _ d line sc s a b hu hd h => exact far hu hd (uzgilFit_of h).2 h1 h2
  | spinoglio unit _ d line sc s a b hu hd h => exact far hu hd (spinoglioFit_of h).2 h1 h2
  | schaerer _ set sc s m b h =>
    obtain ⟨-, -, hm⟩ := schaererFit_of h
    rw [← lg_lt hx hx', ← lg_lt hL hL', h1, h2]
    constructor
    · intro q; linarith [mul_lt_mul_of_pos_left q hm]
    · intro q; exact lt_of_mul_lt_mul_left (by linarith) hm.le
  | zhao _ d sc s hd =>
    obtain ⟨I, e1, e2⟩ := h1
    obtain ⟨J, f1, f2⟩ := h2
    rw [e1, f1, hxI hd, ← lg_lt (hI hd hx e1) (hI hd hx' f1), ← lg_lt hL hL', e2, f2]
    constructor
    · intro q; linarith
    · intro q; linarith

/-- **C140, other names.** A line or galaxy set that is not in the table raises an exception. -/
theorem C140_unknown (fn : Fn ℝ) (Q : Rng ℝ G) (w : World G) (sfr : Arg ℝ) (line : String)
    (set : Option String) (sc : Bool) (fix : Option ℝ) (unit d s : ℝ) :
    ((∀ m b s, (line, set, m, b, s) ∉ deloozeTable) →
      ∃ e, ((Call.delooze14 sfr line set sc fix).run fn Q w).1 = .error e) ∧
    ((∀ a b, (line, a, b) ∉ uzgilTable) → ∃ e, ((Call.uzgil14 unit sfr d line sc s).run fn Q w).1 = .error e) ∧
    ((∀ a b, (line, a, b) ∉ spinoglioTable) →
      ∃ e, ((Call.spinoglio12 unit sfr d line sc s).run fn Q w).1 = .error e) ∧
    ((∀ m b, (set, m, b) ∉ schaererTable) → ∃ e, ((Call.schaerer20 sfr set sc s).run fn Q w).1 = .error e) := by
  refine ⟨fun h => ?_, fun h => ?_, fun h => ?_, fun h => ?_⟩
  · have hf : deloozeFit (K := ℝ) line set = none := by
      unfold deloozeFit
      split
      all_goals first | rfl | (simp [deloozeTable] at h; done) | (simp [deloozeTable] at h; exact absurd rfl (h _ _ _ rfl rfl))
    simp only [Call.run, delooze14, given, hf]
    rcases deloozeCheck line set with e | u <;> exact ⟨_, rfl⟩
  · have hf : uzgilFit (K := ℝ) line = none := by
      unfold uzgilFit
      split
      all_goals first | rfl | (simp [uzgilTable] at h; done) | (simp [uzgilTable] at h; exact absurd rfl (h _ _ rfl))
    simp only [Call.run, firModel, given, hf]
    exact ⟨_, rfl⟩
  · have hf : spinoglioFit (K := ℝ) line = none := by
      unfold spinoglioFit
      split
      all_goals first | rfl | (simp [spinoglioTable] at h; done) | (simp [spinoglioTable] at h; exact absurd rfl (h _ _ rfl))
    simp only [Call.run, firModel, given, hf]
    exact ⟨_, rfl⟩
  · have hf : set.getD "ALPINE-uvirx" ∉ ["ALPINE-uvir", "ALPINE-sed", "ALPINE-uvirx", "high z-uvirx"] := by
      intro hm
      rcases set with - | t
      · simp [schaererTable] at h
      · simp only [Option.getD_some, List.mem_cons, List.not_mem_nil, or_false] at hm
        rcases hm with rfl | rfl | rfl | rfl <;> simp [schaererTable] at h
    simp only [Call.run, schaerer20, given]
    rw [if_pos hf]
    exact ⟨_, rfl⟩

/-- **C140, scatter of De Looze et al.** With scatter and no width given, the scatter is the published one
around the published relation. -/
theorem C140_width {Ω : Type} [MeasurableSpace Ω] {P : Measure Ω} [IsProbabilityMeasure P] {R : Ω → Rng ℝ G}
    (hR : Random P R) (erf : ℝ → ℝ) (w : World G) (sfr : Arg ℝ) (line : String) (set : Option String)
    (m b s : ℝ) (h : (line, set, m, b, s) ∈ deloozeTable) :
    ∃ (y : Ω → Arg ℝ), (∀ ω, ((Call.delooze14 sfr line set true none).run (realFn erf) (R ω) w).1 = .ok (.val (y ω))) ∧
      ∀ (i : ℕ) (x : ℝ), sfr.list[i]? = some x → 0 < x →
        (∀ ω, 0 < (y ω).list.getD i 0) ∧
        HasLaw (fun ω => lg ((y ω).list.getD i 0)) (gaussianReal ((lg x - b) / m) (Real.toNNReal (s ^ 2))) P := by
  obtain ⟨h1, h2, -⟩ := deloozeFit_of h
  have hsame : ∀ Q : Rng ℝ G, (Call.delooze14 sfr line set true none).run (realFn erf) Q w =
      (Call.delooze14 sfr line set true (some s)).run (realFn erf) Q w := by
    intro Q
    simp only [Call.run, delooze14, given, h1, h2, Option.getD_none, Option.getD_some]
  rcases isEmpty_or_nonempty Ω with hE | ⟨⟨ω0⟩⟩
  · exact absurd (IsProbabilityMeasure.measure_univ (μ := P)) (by simp [Set.eq_empty_of_isEmpty])
  obtain ⟨y, y1, -, y2⟩ := C139_scatter (Q0 := R ω0) hR erf w w (.delooze14 sfr line set true (some s)) false s
    (.delooze ..) (.many (sfr.list.map (fun x => (realFn erf).pow 10 (((realFn erf).log10 x - b) / m))))
    (by simp only [plain, Call.run, delooze14, given, h1, h2, scatterOwn_off, Except.map])
  refine ⟨y, fun ω => by rw [hsame, y1], fun i x hx _ => ?_⟩
  obtain ⟨p1, p2⟩ := (y2 i ((realFn erf).pow 10 (((realFn erf).log10 x - b) / m))
    (by
      show (sfr.list.map _)[i]? = _
      rw [List.getElem?_map, hx]
      rfl)).1 (ten_pos _)
  refine ⟨p1, ?_⟩
  have e : Real.log ((realFn erf).pow 10 (((realFn erf).log10 x - b) / m)) / Real.log 10 -
      (if false = true then s ^ 2 * Real.log 10 / 2 else 0) = (lg x - b) / m := by
    rw [if_neg (by decide), sub_zero]
    exact lg_pow _
  rw [e] at p2
  exact p2

/-- A star formation rate of one solar mass per year and the [CII] line of starbursts: 10^7.06 solar
luminosities. -/
example (erf : ℝ → ℝ) (w : World ℕ) : ∃ y : Arg ℝ,
    ((Call.delooze14 (.many [1, 10]) "[CII]" (some "starbursts") false none).run (realFn erf)
      (streams ⟨fun _ => 0, fun _ => 0⟩) w).1 = .ok (.val y) ∧
    ∃ L M, y.list[0]? = some L ∧ y.list[1]? = some M ∧ lg L = 7.06 ∧ L < M := by
  have hr : Relation (.delooze14 (.many [1, 10]) "[CII]" (some "starbursts") false none) (.many [1, 10])
      (fun x L => lg x = -7.06 + 1.00 * lg L) :=
    .delooze _ _ _ _ _ _ _ 0.27 (by simp [deloozeTable])
  obtain ⟨y, h1, -, h2⟩ := C140_relation erf (streams ⟨fun _ => 0, fun _ => 0⟩) w _ _ _ hr
    (by simp [Arg.list])
  obtain ⟨L, a1, a2, a3⟩ := h2 0 1 rfl
  obtain ⟨M, b1, b2, b3⟩ := h2 1 10 rfl
  refine ⟨y, h1, L, M, a1, b1, ?_, (C140_more _ _ _ hr 1 10 L M (by norm_num) (by norm_num) a2 b2 a3 b3).1 (by norm_num)⟩
  have : lg 1 = 0 := by simp [lg]
  simp only [this] at a3
  linarith

end Verif.Gal
