import Verif.Props.RelationTable

/-!
# Properties of the options of the constructors and of interrupted constructions
-/

set_option linter.unusedSectionVars false

namespace Verif.Rel

open Verif.AM Spec
open Verif.Sim (Err)
open Verif.Gal (Fn)

variable {K : Type} [Field K] [LinearOrder K] [IsStrictOrderedRing K]

/-! ## Options -/

/-- **The parameters of the luminosity function are not used.** Whatever `lf_alpha0`, `lf_sigma0`,
`lf_lstar0` and `lf_phistar0` are, the same files are written and the same relation results. -/
theorem C95_lf_ignored (fn : Fn K) (sim : List (Snap K)) (r : Request K) (lirmin : K) (lf lf' : Pars K)
    (d : Disk K) :
    (g13 fn sim r lirmin lf d).1 = (g13 fn sim r lirmin lf' d).1 ∧
      (g13 fn sim r lirmin lf d).2.map Prod.fst = (g13 fn sim r lirmin lf' d).2.map Prod.fst := by
  rw [g13_eq, g13_eq]
  rcases construct fn sim (g13Law fn lirmin) r d with ⟨d', _ | o⟩ <;> exact ⟨rfl, rfl⟩

/-- Afterwards too: `get_irlf_pars(z)` of an object never uses the parameters of the object. -/
theorem C95_pars_ignored (fn : Fn K) (own : Option (Pars K)) (z : K) :
    irlfPars fn own z = .ok (evolve fn (defaultPars fn) z) := rfl

/-- They are used if `alpha0=None` is given. -/
theorem C95_pars_partial (p : Pars K) (args : Pars K) : choosePars (some p) none args = .ok p := rfl

/-- With files on the disk and without `remake`, every other argument is ignored, also invalid ones. -/
theorem C95_cache (fn : Fn K) (sim : List (Snap K)) (law law' : K → Except Err (Law K)) (r r' : Request K)
    (d : Disk K) (hd : d.table ≠ none) (hr : r.remake = false) (hr' : r'.remake = false) :
    construct fn sim law r d = construct fn sim law' r' d ∧ construct fn sim law r d = (d, load d) := by
  have hn : d.table.isNone = false := by
    rcases h : d.table with _ | t
    · exact absurd h hd
    · rfl
  unfold construct
  rw [hr, hr', hn]
  simp

/-- `remake` is not ignored if `comp` is false, as the documentation says it is. -/
theorem C95_remake_without_comp (fn : Fn K) (sim : List (Snap K)) (law : K → Except Err (Law K))
    (r : Request K) (d : Disk K) (hr : r.remake = true) (b : Bool) :
    construct fn sim law { r with comp := b } d = construct fn sim law r d := by
  unfold construct make
  rw [hr]
  simp

/-- Without files, `comp` and `remake` there is no relation: every value asked for raises. -/
theorem C95_uninitialised (fn : Fn K) (sim : List (Snap K)) (law : K → Except Err (Law K)) (r : Request K)
    (d : Disk K) (hd : d.table = none) (hr : r.remake = false) (hc : r.comp = false) (x z own : K)
    (c : Option K) :
    construct fn sim law r d = (d, .ok none) ∧ value (none : Option (Interp K)) x z = .error .valueError ∧
      sfr (none : Option (Interp K)) own c x z = .error .valueError := by
  refine ⟨?_, rfl, rfl⟩
  unfold construct load
  rw [hr, hc, hd]
  simp

/-- `haloprop='auto'` needs a snapshot with number zero. -/
theorem C95_auto_needs_zero (fn : Fn K) (sim : List (Snap K)) (law : K → Except Err (Law K)) (r : Request K)
    (d : Disk K) (hf : Fresh r d) (ha : r.haloprop = .auto) (h0 : ∀ s ∈ sim, s.index ≠ 0) :
    construct fn sim law r d = (d, .error .valueError) := by
  have hg : getSnap sim 0 = .error .valueError := by
    unfold getSnap
    rw [List.find?_eq_none.2 (fun s hs => by simpa using h0 s hs)]
  unfold construct make chooseProp
  rw [if_pos ((fresh_iff r d).2 hf), ha]
  simp only
  rw [hg]

/-- With one, `auto` is `vmax` if this snapshot has `vmax`, and `mass` if it has only `mass`. -/
theorem C95_auto_partial (fn : Fn K) (sim : List (Snap K)) (law : K → Except Err (Law K)) (r : Request K)
    (d : Disk K) (ha : r.haloprop = .auto) (s : Snap K) (hs : getSnap sim 0 = .ok s) :
    (s.vmax ≠ none → construct fn sim law r d = construct fn sim law { r with haloprop := .vmax } d) ∧
      (s.vmax = none → s.mass ≠ none →
        construct fn sim law r d = construct fn sim law { r with haloprop := .mass } d) := by
  have key : ∀ w u, chooseProp sim r.haloprop = .ok u → chooseProp sim w = .ok u →
      construct fn sim law r d = construct fn sim law { r with haloprop := w } d := by
    intro w u h1 h2
    unfold construct make
    simp only [h1, h2]
  constructor
  · intro hv
    refine key .vmax true ?_ rfl
    rw [ha]
    unfold chooseProp
    simp only
    rw [hs]
    simp only
    rw [if_pos (Option.isSome_iff_ne_none.2 hv)]
  · intro hv hm
    refine key .mass false ?_ rfl
    rw [ha]
    unfold chooseProp
    simp only
    rw [hs]
    simp only
    rw [if_neg (by rw [hv]; simp), if_pos (Option.isSome_iff_ne_none.2 hm)]

/-- An invalid `haloprop` is noticed if the table is made, and nothing is written. -/
theorem C95_invalid_partial (fn : Fn K) (sim : List (Snap K)) (law : K → Except Err (Law K)) (r : Request K)
    (d : Disk K) (hf : Fresh r d) (ha : r.haloprop = .other) :
    construct fn sim law r d = (d, .error .valueError) := by
  unfold construct make chooseProp
  rw [if_pos ((fresh_iff r d).2 hf), ha]

/-- The two formulas for the luminosity and for the number agree where they meet. -/
theorem C95_breaks (fn : Fn K) (h1 : ∀ y, fn.pow 1 y = 1) (l p : K) :
    lstarAt fn l 2 = l * fn.pow (1 + 2) (355 / 100) ∧
      phistarAt fn p (11 / 10) = p * fn.pow (1 + 11 / 10) (-(57 / 100)) := by
  constructor
  · unfold lstarAt
    rw [if_neg (lt_irrefl _), div_self (by norm_num), h1, mul_one]
  · unfold phistarAt
    rw [if_neg (lt_irrefl _), div_self (by norm_num), h1, mul_one]

/-- The full property: a table that is made anew is that of the luminosity function asked for. -/
def C95_full : Prop :=
  ∀ (sim : List (Snap ℝ)) (r : Request ℝ) (lirmin : ℝ) (lf : Pars ℝ) (d d' : Disk ℝ) (p : Interp ℝ)
    (q : Pars ℝ), Fresh r d → 0 < lirmin → 0 < lf.sigma → 0 < lf.lstar → 0 < lf.phistar →
    (sim.map Snap.index).Nodup → (∀ s ∈ sim, 0 ≤ s.redshift ∧ 0 < s.edge) →
    g13 (Gal.realFn (fun _ => 0)) sim r lirmin lf d = (d', .ok (some p, q)) →
    construct (Gal.realFn (fun _ => 0)) sim
      (fun z => .ok (infrared (Gal.realFn (fun _ => 0)) (evolve (Gal.realFn (fun _ => 0)) lf z) lirmin)) r d =
        (d', .ok (some p))

/-! ### A luminosity function with fewer galaxies -/

theorem sumBelow_scale (fn : Fn K) (f g : K → K) (e xmin : K) (h : ∀ x, g x = e * f x) (n : ℕ) :
    LF.Spec.sumBelow fn g xmin n = e * LF.Spec.sumBelow fn f xmin n := by
  induction n with
  | zero => simp [LF.Spec.sumBelow]
  | succ n ih => rw [LF.Spec.sumBelow, LF.Spec.sumBelow, ih, h]; ring

theorem evolve_lstar_pos (fn : Fn K) (hf : LF.Spec.Logs fn) (p : Pars K) (z : K) (hz : -1 < z)
    (h : 0 < p.lstar) : 0 < (evolve fn p z).lstar := by
  show 0 < lstarAt fn p.lstar z
  unfold lstarAt
  split
  · exact mul_pos h (hf.pow_pos _ _ (by linarith))
  · exact mul_pos (mul_pos h (hf.pow_pos _ _ (by norm_num)))
      (hf.pow_pos _ _ (div_pos (by linarith) (by norm_num)))

theorem evolve_phistar_pos (fn : Fn K) (hf : LF.Spec.Logs fn) (p : Pars K) (z : K) (hz : -1 < z)
    (h : 0 < p.phistar) : 0 < (evolve fn p z).phistar := by
  show 0 < phistarAt fn p.phistar z
  unfold phistarAt
  split
  · exact mul_pos h (hf.pow_pos _ _ (by linarith))
  · exact mul_pos (mul_pos h (hf.pow_pos _ _ (by norm_num)))
      (hf.pow_pos _ _ (div_pos (by linarith) (by norm_num)))

theorem infrared_fair (fn : Fn K) (hf : LF.Spec.Logs fn) (p : Pars K) (m : K) (hm : 0 < m)
    (hl : 0 < p.lstar) (hp : 0 < p.phistar) (hs : 0 < p.sigma) : Fair (infrared fn p m) := by
  refine tab_fair fn hf _ ?_ hm (LF.modified_positive fn hf _ _ _ _ _ hp hl hm)
  show decide (¬ (_ ≤ (0 : K) ∨ _ ≤ (0 : K) ∨ _ ≤ (0 : K))) = true
  rw [decide_eq_true_iff]
  push Not
  exact ⟨hl, hm, hs⟩

theorem infrared_scale (fn : Fn K) (hf : LF.Spec.Logs fn) (p : Pars K) (m e : K) (hm : 0 < m) (he : 0 < e)
    (hl : 0 < p.lstar) (hp : 0 < p.phistar) :
    (infrared fn { p with phistar := e * p.phistar } m).total = e * (infrared fn p m).total := by
  have t1 : (infrared fn { p with phistar := e * p.phistar } m).total =
      (LF.modified fn (e * p.phistar) p.lstar p.alpha p.sigma m).count fn m := by simp only [infrared, ofTab, LF.modified]
  have t2 : (infrared fn p m).total =
      (LF.modified fn p.phistar p.lstar p.alpha p.sigma m).count fn m := by simp only [infrared, ofTab, LF.modified]
  have hep : 0 < e * p.phistar := mul_pos he hp
  have c1 := (LF.C91_count fn hf (LF.modified fn (e * p.phistar) p.lstar p.alpha p.sigma m) hm
    (LF.modified_positive fn hf _ _ _ _ _ hep hl hm)).2 m (le_refl _)
  have c2 := (LF.C91_count fn hf (LF.modified fn p.phistar p.lstar p.alpha p.sigma m) hm
    (LF.modified_positive fn hf _ _ _ _ _ hp hl hm)).2 m (le_refl _)
  rw [t1, t2, c1, c2]
  obtain ⟨N, hN⟩ : ∃ N : ℕ, N = 10001 := ⟨_, rfl⟩
  rw [← hN]
  have := sumBelow_scale fn (LF.modSchechter fn p.phistar p.lstar p.alpha p.sigma)
    (LF.modSchechter fn (e * p.phistar) p.lstar p.alpha p.sigma) e m
    (fun x => by unfold LF.modSchechter; ring) N
  have h3 : LF.Spec.sumBelow fn (LF.modified fn (e * p.phistar) p.lstar p.alpha p.sigma m).shape
      (LF.modified fn (e * p.phistar) p.lstar p.alpha p.sigma m).xmin N =
      e * LF.Spec.sumBelow fn (LF.modified fn p.phistar p.lstar p.alpha p.sigma m).shape
        (LF.modified fn p.phistar p.lstar p.alpha p.sigma m).xmin N := this
  rw [h3]
  ring

theorem evolve_scale (fn : Fn K) (p : Pars K) (z e : K) :
    evolve fn { p with phistar := e * p.phistar } z =
      { evolve fn p z with phistar := e * (evolve fn p z).phistar } := by
  unfold evolve phistarAt
  simp only
  congr 1
  split <;> ring

theorem two_selected (E : ℝ) : ∀ s ∈ twoSnaps E, selected s true 1 = .ok [1 / 2, 2] := by
  intro s hs
  simp only [twoSnaps, List.mem_cons, List.not_mem_nil, or_false] at hs
  rcases hs with rfl | rfl <;> simp [selected]

theorem two_usable (E : ℝ) (hE : 0 < E) (law : ℝ → Except Err (Law ℝ))
    (h : ∀ z, 0 ≤ z → ∃ l, law z = .ok l ∧ Fair l) : Usable (twoSnaps E) law anew true := by
  refine ⟨by simp [twoSnaps], rfl, .inr (by simp [twoSnaps]), ?_⟩
  intro s hs
  refine ⟨?_, ?_, _, two_selected E s hs⟩ <;>
  simp only [twoSnaps, List.mem_cons, List.not_mem_nil, or_false] at hs
  · rcases hs with rfl | rfl <;> exact hE
  · rcases hs with rfl | rfl
    · exact h 1 zero_le_one
    · exact h 0 (le_refl _)

theorem C95_full_false : ¬ C95_full := by
  intro H
  obtain ⟨fn, hfn⟩ : ∃ fn, fn = Gal.realFn (fun _ => 0) := ⟨_, rfl⟩
  unfold C95_full at H
  rw [← hfn] at H
  have hlogs : LF.Spec.Logs fn := by rw [hfn]; exact LF.realFn_logs
  have fair : ∀ z, 0 ≤ z → Fair (infrared fn (evolve fn (defaultPars fn) z) 1) := fun z hz =>
    C94_infrared_fair fn hlogs 1 z one_pos (by linarith)
  obtain ⟨T, hT⟩ : ∃ T : ℝ → ℝ, T = fun z => (infrared fn (evolve fn (defaultPars fn) z) 1).total := ⟨_, rfl⟩
  have t1 : 0 < T 1 := by rw [hT]; exact (fair 1 zero_le_one).total
  have t0 : 0 < T 0 := by rw [hT]; exact (fair 0 (le_refl _)).total
  obtain ⟨E, hE⟩ : ∃ E, E = 2 / T 1 + 2 / T 0 + 1 := ⟨_, rfl⟩
  have hE1 : 1 ≤ E := by
    have := div_pos two_pos t1
    have := div_pos two_pos t0
    rw [hE]; linarith
  have hE0 : 0 < E := lt_of_lt_of_le one_pos hE1
  have hE3 : E ≤ E ^ 3 := le_self_pow₀ hE1 (by norm_num)
  have many1 : 2 < T 1 * E ^ 3 := by
    have h : T 1 * (2 / T 1) = 2 := by field_simp
    have := div_pos two_pos t0
    have : 2 < T 1 * E := by rw [hE]; nlinarith
    nlinarith
  have many0 : 2 < T 0 * E ^ 3 := by
    have h : T 0 * (2 / T 0) = 2 := by field_simp
    have := div_pos two_pos t1
    have : 2 < T 0 * E := by rw [hE]; nlinarith
    nlinarith
  have hnd : ((twoSnaps E).map Snap.index).Nodup := by simp [twoSnaps]
  have hfresh : Fresh anew (Spec.nothing : Disk ℝ) := .inl rfl
  obtain ⟨d', p, hc⟩ := C94_made fn (twoSnaps E) (g13Law fn 1) anew true (.inl rfl) Spec.nothing
    (two_usable E hE0 _ (fun z hz => ⟨_, rfl, fair z hz⟩)) hfresh
  -- the numbers with the default values
  have hnum := C94_table_numbers fn (twoSnaps E) hnd (g13Law fn 1) anew _ d' p hfresh hc true rfl (by
    intro s hs
    have hs' := hs
    simp only [twoSnaps, List.mem_cons, List.not_mem_nil, or_false] at hs
    refine ⟨?_, ?_⟩
    · rcases hs with rfl | rfl <;> exact hE0
    · intro l hl
      have hz : 0 ≤ s.redshift := by rcases hs with rfl | rfl <;> norm_num
      have hl' : l = infrared fn (evolve fn (defaultPars fn) s.redshift) 1 := (Except.ok.inj hl).symm
      refine ⟨by rw [hl']; exact fair _ hz, fun cat hcat => ?_⟩
      have e := (two_selected E _ hs').symm.trans hcat
      simp only [Except.ok.injEq] at e
      subst e
      refine ⟨by simp, ?_⟩
      have e2 : l.total = T s.redshift := by rw [hl', hT]
      rw [e2]
      rcases hs with rfl | rfl
      · simpa using many1.le
      · simpa using many0.le)
  -- fewer galaxies
  have hpos : 0 < T 0 * E ^ 3 := by linarith
  obtain ⟨e, he⟩ : ∃ e, e = 1 / (T 0 * E ^ 3) := ⟨_, rfl⟩
  have he0 : 0 < e := by rw [he]; exact one_div_pos.2 hpos
  obtain ⟨lf, hlf⟩ : ∃ lf, lf = { defaultPars fn with phistar := e * (defaultPars fn).phistar } := ⟨_, rfl⟩
  have h10 : (0 : ℝ) < 10 := by norm_num
  have dl : 0 < (defaultPars fn).lstar := hlogs.pow_pos _ _ h10
  have dp : 0 < (defaultPars fn).phistar := hlogs.pow_pos _ _ h10
  have ds : 0 < (defaultPars fn).sigma := by show (0 : ℝ) < 5 / 10; norm_num
  have lp : 0 < lf.phistar := by rw [hlf]; exact mul_pos he0 dp
  have ll : 0 < lf.lstar := by rw [hlf]; exact dl
  have ls : 0 < lf.sigma := by rw [hlf]; exact ds
  have hg : g13 fn (twoSnaps E) anew 1 lf Spec.nothing = (d', .ok (some p, lf)) := by
    rw [g13_eq, hc]
  have h := H (twoSnaps E) anew 1 lf Spec.nothing d' p lf hfresh one_pos ls ll lp hnd (by
      intro s hs
      simp only [twoSnaps, List.mem_cons, List.not_mem_nil, or_false] at hs
      rcases hs with rfl | rfl
      · exact ⟨zero_le_one, hE0⟩
      · exact ⟨le_refl _, hE0⟩) hg
  obtain ⟨u', hu', p1, p2, p3, p4, p5⟩ := fresh_table fn _ hnd _ _ _ _ p hfresh h
  have hu'' : u' = true := by
    have : chooseProp (twoSnaps E) anew.haloprop = .ok true := rfl
    rw [this] at hu'
    simp only [Except.ok.injEq] at hu'
    exact hu'.symm
  subst hu''
  obtain ⟨l, row', k, hl, hrow, hk, hkt⟩ := p5 1 _ rfl
  have hl' : l = infrared fn (evolve fn lf 0) 1 := (Except.ok.inj hl).symm
  have hfl : Fair l := by
    rw [hl']
    exact infrared_fair fn hlogs _ 1 one_pos (evolve_lstar_pos fn hlogs lf 0 (by norm_num) ll)
      (evolve_phistar_pos fn hlogs lf 0 (by norm_num) lp) ls
  have htot : l.total * E ^ 3 = 1 := by
    have : l.total = e * T 0 := by
      rw [hl', hlf, evolve_scale, infrared_scale fn hlogs _ 1 e one_pos he0
        (evolve_lstar_pos fn hlogs _ 0 (by norm_num) dl) (evolve_phistar_pos fn hlogs _ 0 (by norm_num) dp), hT]
    rw [this, mul_assoc, he, one_div, inv_mul_cancel₀ hpos.ne']
  have hgrid : (gridOf fn true anew.massmin)[0]? = some 0 := by
    unfold gridOf
    rw [if_pos rfl, linspace_get _ _ _ _ (by norm_num)]
    simp
  have hone : above [1 / 2, 2] (1 / 2 : ℝ) = 1 := by
    unfold above
    norm_num
  have hnan := C94_unmatched_nan l hfl _ hE0 true anew.massmin _ [1 / 2, 2] row'
    (two_selected E _ (by simp [twoSnaps])) hrow 0 0 hgrid (by simp) (1 / 2) (by simp) (by norm_num)
    (by rw [hone]; show l.total * E ^ 3 < _; rw [htot]; norm_num) (by rw [hone])
  have hk' : k < (twoSnaps E).length := by
    rw [← p4]
    exact (List.getElem?_eq_some_iff.1 hk).1
  have h0 : 0 < p.axis.length := by
    rw [p1]
    exact (List.getElem?_eq_some_iff.1 hgrid).1
  obtain ⟨v, hv⟩ := hnum k 0 hk' h0
  unfold Interp.entry at hv
  rw [hkt] at hv
  simp only at hv
  rw [hnan] at hv
  cases hv

/-! ## Interrupted constructions -/

/-- The disk after the first `k` files of a construction have been written. -/
def interrupted (ws : List (Write K)) (d : Disk K) (k : ℕ) : Disk K := (ws.take k).foldl Write.apply d

/-- If there was no table before, an interrupted construction leaves nothing that is taken for a table: the
next object behaves as if nothing had been there. -/
theorem C96_first_partial (fn : Fn K) (sim sim' : List (Snap K)) (law law' : K → Except Err (Law K))
    (r r' : Request K) (d : Disk K) (hd : d.table = none) (ws : List (Write K))
    (hm : make fn sim law r = .ok ws) (k : ℕ) (hk : k < 3) :
    (construct fn sim' law' r' (interrupted ws d k)).2 = (construct fn sim' law' r' d).2 := by
  obtain ⟨g, z, t, rfl⟩ : ∃ g z t, ws = [.axis g, .redshifts z, .table t] := by
    unfold make at hm
    split at hm
    · cases hm
    · simp only at hm
      split at hm
      · cases hm
      · simp only [Except.ok.injEq] at hm
        exact ⟨_, _, _, hm.symm⟩
  have hnone : (interrupted [.axis g, .redshifts z, .table t] d k).table = none := by
    match k, hk with
    | 0, _ => exact hd
    | 1, _ => exact hd
    | 2, _ => exact hd
  obtain ⟨e, he⟩ : ∃ e, e = interrupted [.axis g, .redshifts z, .table t] d k := ⟨_, rfl⟩
  rw [← he] at hnone ⊢
  unfold construct
  rw [hnone, hd]
  by_cases hf : (r'.remake || (r'.comp && (none : Option (List (List (Option K)))).isNone)) = true
  · rw [if_pos hf, if_pos hf]
    rcases hm' : make fn sim' law' r' with e' | ws'
    · rfl
    · simp only
      have hall : ∀ d : Disk K, ws'.foldl Write.apply d = ws'.foldl Write.apply Spec.nothing := by
        intro d
        unfold make at hm'
        split at hm'
        · cases hm'
        · simp only at hm'
          split at hm'
          · cases hm'
          · simp only [Except.ok.injEq] at hm'
            subst hm'
            rfl
      rw [hall e, hall d]
  · rw [if_neg hf, if_neg hf]
    show load e = load d
    unfold load
    rw [hnone, hd]

/-- Making the table again after an interruption gives what an undisturbed construction gives. -/
theorem C96_repeat (fn : Fn K) (sim sim' : List (Snap K)) (law law' : K → Except Err (Law K))
    (r r' : Request K) (d : Disk K) (ws ws' : List (Write K)) (_hm : make fn sim law r = .ok ws) (k : ℕ)
    (hm' : make fn sim' law' r' = .ok ws') (hr : r'.remake = true) :
    construct fn sim' law' r' (interrupted ws d k) = construct fn sim' law' r' d := by
  have hall : ∀ d : Disk K, ws'.foldl Write.apply d = ws'.foldl Write.apply Spec.nothing := by
    intro d
    unfold make at hm'
    split at hm'
    · cases hm'
    · simp only at hm'
      split at hm'
      · cases hm'
      · simp only [Except.ok.injEq] at hm'
        subst hm'
        rfl
  unfold construct
  rw [hr, hm']
  simp only [Bool.true_or, if_true]
  rw [hall, hall d]

/-- **Mixed.** If a table is made again and this is interrupted after the first file, the old table is read
with the new halo axis: every later object loads it without complaint. -/
theorem C96_mixed (fn : Fn K) (sim : List (Snap K)) (law : K → Except Err (Law K))
    (g z x' z' : List K) (t t' : List (List (Option K))) (p' : Interp K)
    (hold : interpolator x' z' t' = .ok p') (hlen : g.length = x'.length) (hg : ascending g = true)
    (r' : Request K) (hr : r'.remake = false) :
    (construct fn sim law r' (interrupted [.axis g, .redshifts z, .table t] ⟨some x', some z', some t'⟩ 1)).2 =
      .ok (some { p' with axis := g }) := by
  have hint : interpolator g z' t' = .ok { p' with axis := g } := by
    unfold interpolator at hold ⊢
    rw [hlen, if_pos hg]
    split at hold
    · rw [if_pos ‹_›]
      split at hold
      · split at hold
        · rw [if_pos ‹_›]
          simp only [Except.ok.injEq] at hold; subst hold; rfl
        · rw [if_neg ‹_›]
          split at hold
          · rw [if_pos ‹_›]
            simp only [Except.ok.injEq] at hold; subst hold; rfl
          · cases hold
      · cases hold
    · cases hold
  rw [(C95_cache fn sim law law r' r' _ (by simp [interrupted, Write.apply]) hr hr).2]
  show load ⟨some g, some z', some t'⟩ = _
  unfold load
  simp only
  rw [hint]

/-- Then the halo at every point of the new axis gets the value of the halo at the same place of the old
axis, at every redshift. -/
theorem C96_mixed_values (p : Interp K) (g : List K) (hg : ascending g = true) (hx : ascending p.axis = true)
    (j : ℕ) (a b a' b' : K) (ha : g[j]? = some a) (hb : g[j + 1]? = some b) (ha' : p.axis[j]? = some a')
    (hb' : p.axis[j + 1]? = some b') (z : K) :
    ({ p with axis := g } : Interp K).eval a z = p.eval a' z := by
  have hlt : ∀ (xs : List K), ascending xs = true → ∀ a b, xs[j]? = some a → xs[j + 1]? = some b → a < b := by
    intro xs h a b h1 h2
    obtain ⟨i1, rfl⟩ := List.getElem?_eq_some_iff.1 h1
    obtain ⟨i2, rfl⟩ := List.getElem?_eq_some_iff.1 h2
    exact List.pairwise_iff_getElem.1 (ascending_pairwise xs h) j (j + 1) i1 i2 (by omega)
  have c1 := cell_mid g hg j a b a ha hb (le_refl _) (hlt g hg a b ha hb)
  have c2 := cell_mid p.axis hx j a' b' a' ha' hb' (le_refl _) (hlt _ hx a' b' ha' hb')
  unfold Interp.eval
  simp only
  rw [c1, c2, sub_self, sub_self, zero_div, zero_div]
  rfl

/-- **Refused for good.** If the number of snapshots has changed since the old table was made, an
interruption after the second file leaves files that every later object fails to load, unless the table is
made again. -/
theorem C96_refused (fn : Fn K) (sim : List (Snap K)) (law : K → Except Err (Law K))
    (g z x' z' : List K) (t t' : List (List (Option K))) (hz : t'.length ≠ z.length)
    (r' : Request K) (hr : r'.remake = false) :
    (construct fn sim law r' (interrupted [.axis g, .redshifts z, .table t] ⟨some x', some z', some t'⟩ 2)).2 =
      .error .valueError := by
  rw [(C95_cache fn sim law law r' r' _ (by simp [interrupted, Write.apply]) hr hr).2]
  show load ⟨some g, some z, some t'⟩ = _
  unfold load interpolator
  simp only
  rw [if_neg (fun h => hz h.1)]

/-- The full property: however a construction is interrupted, a later object has the old relation or the new
one. -/
def C96_full : Prop :=
  ∀ (fn : Fn ℝ) (sim : List (Snap ℝ)) (law : ℝ → Except Err (Law ℝ)) (r r' : Request ℝ) (d d' : Disk ℝ)
    (p : Interp ℝ) (ws : List (Write ℝ)) (k : ℕ), LF.Spec.Logs fn →
    construct fn sim law r Spec.nothing = (d, .ok (some p)) → make fn sim law r' = .ok ws →
    d' = interrupted ws d k → load d' = load d ∨ load d' = load (ws.foldl Write.apply d)

/-- Values from zero to one, equally frequent. -/
noncomputable def uniform : Law ℝ where
  dist := { cdf := fun x => match x with
              | none => 1
              | some x => if x ≤ 0 then 0 else if x < 1 then x else 1
            ppf := fun q => some (q : WithTop ℝ) }
  total := 3

theorem uniform_fair : Fair uniform where
  zero := by
    show (if (0 : ℝ) ≤ 0 then (0 : ℝ) else _) = 0
    rw [if_pos (le_refl _)]
  top := rfl
  total := by show (0 : ℝ) < 3; norm_num
  positive := fun c h0 _ => ⟨c, h0, rfl⟩

noncomputable def light : List (Snap ℝ) :=
  [⟨1, 1, 1, some [1, 100], none⟩, ⟨0, 0, 1, some [1, 100], none⟩]

theorem light_usable (mm : ℝ) (b c : Bool) : Usable light (fun _ => .ok uniform) ⟨b, c, .mass, mm⟩ false := by
  refine ⟨by simp [light], rfl, .inr (by simp [light]), ?_⟩
  intro s hs
  simp only [light, List.mem_cons, List.not_mem_nil, or_false] at hs
  refine ⟨?_, ⟨_, rfl, uniform_fair⟩, ?_⟩
  · rcases hs with rfl | rfl <;> exact one_pos
  · rcases hs with rfl | rfl <;> exact ⟨_, rfl⟩

theorem axis_of (p : Interp ℝ) (g : List ℝ) (h : ({ p with axis := g } : Interp ℝ) = p) : g = p.axis :=
  congrArg Interp.axis h

theorem C96_full_false : ¬ C96_full := by
  intro H
  obtain ⟨fn, hfn⟩ : ∃ fn, fn = Gal.realFn (fun _ => 0) := ⟨_, rfl⟩
  have hlogs : LF.Spec.Logs fn := by rw [hfn]; exact LF.realFn_logs
  have hnd : (light.map Snap.index).Nodup := by simp [light]
  obtain ⟨d, p, hc⟩ := C94_made fn light (fun _ => .ok uniform) ⟨true, true, .mass, 1⟩ false (.inr hlogs)
    Spec.nothing (light_usable 1 true true) (.inl rfl)
  obtain ⟨d2, p2, hc2⟩ := C94_made fn light (fun _ => .ok uniform) ⟨true, true, .mass, 1000⟩ false (.inr hlogs)
    Spec.nothing (light_usable 1000 true true) (.inl rfl)
  obtain ⟨ws, hm, hd, hload⟩ := construct_fresh fn _ _ _ _ _ _ (.inl rfl) hc
  obtain ⟨ws2, hm2, hd2, hload2⟩ := construct_fresh fn _ _ _ _ _ _ (.inl rfl) hc2
  obtain ⟨u, rows, hu, hws, hlen, hrows⟩ := make_ok fn light hnd _ _ ws hm
  obtain ⟨u2, rows2, hu2, hws2, hlen2, hrows2⟩ := make_ok fn light hnd _ _ ws2 hm2
  have e1 : u = false := (Except.ok.inj hu).symm
  have e2 : u2 = false := (Except.ok.inj hu2).symm
  subst e1 e2
  obtain ⟨l, row1, hl, hr1, hk1⟩ := hrows 0 _ rfl
  obtain ⟨l2, row2, hl2, hr2, hk2⟩ := hrows2 0 _ rfl
  have : l = uniform := (Except.ok.inj hl).symm
  subst this
  have : l2 = uniform := (Except.ok.inj hl2).symm
  subst this
  -- the axes
  have hlog1 : fn.log10 1 = 0 := by
    rw [hfn]; show Real.log 1 / Real.log 10 = 0; simp
  have hpow : ∀ y : ℝ, fn.pow 10 y = (10 : ℝ) ^ y := by intro y; rw [hfn]; rfl
  have g1 : ∀ j : ℕ, j < 5000 → (gridOf fn false 1)[j]? = some ((10 : ℝ) ^ ((j : ℝ) * (10 / 4999))) := by
    intro j hj
    unfold gridOf
    rw [if_neg (by simp), List.getElem?_map, linspace_get _ _ _ _ hj, Option.map_some, hpow, hlog1]
    congr 2
    push_cast
    ring
  have g2 : (gridOf fn false 1000)[0]? = some 1000 := by
    unfold gridOf
    rw [if_neg (by simp), List.getElem?_map, linspace_get _ _ _ _ (by norm_num), Option.map_some]
    congr 1
    rw [show fn.log10 1000 + ((0 : ℕ) : ℝ) * ((fn.log10 1000 + 10 - fn.log10 1000) / (((5000 : ℕ) : ℝ) - 1)) =
      fn.log10 1000 by simp]
    exact hlogs.pow_log 1000 (by norm_num)
  have hne : gridOf fn false 1 ≠ gridOf fn false 1000 := by
    intro h
    have := g1 0 (by norm_num)
    rw [h, g2] at this
    simp at this
  -- the tables
  have hzero : row2 = (gridOf fn false 1000).map (fun _ => some 0) := by
    unfold row at hr2
    have : selected (⟨1, 1, 1, some [1, 100], none⟩ : Snap ℝ) false 1000 = .ok [] := by
      simp [selected]
      norm_num
    rw [this] at hr2
    exact (Except.ok.inj hr2).symm
  have hx1 : (1 : ℝ) < 10 ^ ((1 : ℕ) * (10 / 4999) : ℝ) := by
    apply Real.one_lt_rpow <;> norm_num
  have hx2 : (10 : ℝ) ^ ((1 : ℕ) * (10 / 4999) : ℝ) < 100 := by
    have : (100 : ℝ) = 10 ^ (2 : ℝ) := by norm_num
    rw [this]
    apply Real.rpow_lt_rpow_of_exponent_lt <;> norm_num
  have hsel : selected (⟨1, 1, 1, some [1, 100], none⟩ : Snap ℝ) false 1 = .ok [1, 100] := by
    simp [selected]
  have habove : above [1, 100] (1 : ℝ) = 1 := by
    unfold above
    norm_num
  obtain ⟨c, v, hc0, hc1, hppf, hent, -⟩ := C94_abundance_partial uniform uniform_fair _ one_pos false 1 _ [1, 100] row1
    hsel hr1 1 _ (g1 1 (by norm_num)) (by simp) 1 100 (by simp) (by simp) hx1.le hx2.le ⟨1, by simp, hx1⟩
    ⟨100, by simp, hx2⟩ (by rw [habove]; show _ < (3 : ℝ) * 1 ^ 3; norm_num)
  have hv : 0 < v := by
    have : c = v := WithTop.coe_inj.1 (Option.some.inj hppf)
    rw [← this]; exact hc0
  have hrow : row1 ≠ row2 := by
    intro h
    rw [h, hzero, List.getElem?_map] at hent
    rcases hg : (gridOf fn false 1000)[1]? with _ | y
    · rw [hg] at hent; cases hent
    · rw [hg] at hent
      simp only [Option.map_some, Option.some.injEq] at hent
      linarith
  have hrows' : rows ≠ rows2 := by
    intro h
    rw [h, hk2] at hk1
    exact hrow (Option.some.inj hk1).symm
  -- the interrupted construction
  have hmix := H fn light (fun _ => .ok uniform) ⟨true, true, .mass, 1⟩ ⟨true, true, .mass, 1000⟩ d _ p ws2 1 hlogs
    hc hm2 rfl
  subst hws hws2
  rw [apply_all] at hd hd2
  subst hd hd2
  obtain ⟨_, _, _, e, hi⟩ := load_some _ _ hload
  simp only [Disk.mk.injEq, Option.some.injEq] at e
  obtain ⟨rfl, rfl, rfl⟩ := e
  obtain ⟨_, _, _, e, hi2⟩ := load_some _ _ hload2
  simp only [Disk.mk.injEq, Option.some.injEq] at e
  obtain ⟨rfl, rfl, rfl⟩ := e
  have hm1 := C96_mixed fn light (fun _ => .ok uniform) (gridOf fn false 1000) (light.map Snap.redshift)
    (gridOf fn false 1) (light.map Snap.redshift) rows2 rows p hi (by simp [gridOf, linspace_length])
    (grid_ascending fn false (.inr hlogs) _) ⟨false, false, .mass, 1⟩ rfl
  rw [(C95_cache fn light _ (fun _ => .ok uniform) _ ⟨false, false, .mass, 1⟩ _ (by simp [interrupted, Write.apply]) rfl rfl).2] at hm1
  simp only at hm1
  rw [hm1, hload, apply_all, hload2] at hmix
  obtain ⟨i1, -⟩ := interpolator_ok _ _ _ _ hi
  rcases hmix with h | h
  · simp only [Except.ok.injEq, Option.some.injEq] at h
    have h3 := axis_of p _ h
    rw [i1] at h3
    exact hne h3.symm
  · simp only [Except.ok.injEq, Option.some.injEq] at h
    have h1 : p.table = p2.table := by rw [← h]
    have q1 : p.table = rows.reverse := by
      unfold interpolator at hi
      split at hi
      · split at hi
        · rw [if_neg (by simp [light, ascending])] at hi
          split at hi
          · simp only [Except.ok.injEq] at hi; rw [← hi]
          · cases hi
        · cases hi
      · cases hi
    have q2 : p2.table = rows2.reverse := by
      unfold interpolator at hi2
      split at hi2
      · split at hi2
        · rw [if_neg (by simp [light, ascending])] at hi2
          split at hi2
          · simp only [Except.ok.injEq] at hi2; rw [← hi2]
          · cases hi2
        · cases hi2
      · cases hi2
    rw [q1, q2] at h1
    exact hrows' (List.reverse_injective h1)

/-- The situations of the theorems exist: a table can be made, and one that exists is taken for any other
request, also an invalid one. -/
example : ∃ d p, construct (Gal.realFn (fun _ => 0)) light (fun _ => .ok uniform) ⟨true, true, .mass, 1⟩
      Spec.nothing = (d, .ok (some p)) ∧
    construct (Gal.realFn (fun _ => 0)) light (fun _ => .ok uniform) ⟨true, false, .other, 7⟩ d =
      (d, .ok (some p)) := by
  obtain ⟨d, p, hc⟩ := C94_made (Gal.realFn (fun _ => 0)) light (fun _ => .ok uniform) ⟨true, true, .mass, 1⟩
    false (.inr LF.realFn_logs) Spec.nothing (light_usable 1 true true) (.inl rfl)
  obtain ⟨ws, -, -, hload⟩ := construct_fresh _ _ _ _ _ _ _ (.inl rfl) hc
  refine ⟨d, p, hc, ?_⟩
  obtain ⟨x, z, t, e, -⟩ := load_some _ _ hload
  rw [(C95_cache _ _ _ (fun _ => .ok uniform) _ ⟨true, false, .other, 7⟩ d (by rw [e]; simp) rfl rfl).2, hload]

end Verif.Rel
