import Verif.Lemmas.MatchCat
import Mathlib.Data.Rat.Cast.Order
import Mathlib.Tactic.FinCases
import Mathlib.Tactic.NormNum

set_option linter.unusedSectionVars false

/-!
# C43, C86, C87: abundance matching
-/

namespace Verif.AM

open Verif.Sim (Err)

variable {K : Type} [Field K] [LinearOrder K] [IsStrictOrderedRing K]

/-! ## A concrete case -/

/-- The uniform distribution on [0, 1]. -/
def uniform : Dist ℚ where
  cdf := fun x => match x with
    | none => 1
    | some x => if x < 0 then 0 else if 1 < x then 1 else x
  ppf := fun c => if 0 ≤ c ∧ c ≤ 1 then some ((c : ℚ) : WithTop ℚ) else none

/-- The uniform distribution between 1/4 and 3/4. -/
theorem uniform_proper (a b : ℚ) (h0 : 0 ≤ a) (hab : a < b) (h1 : b ≤ 1) :
    Spec.Proper uniform a ((b : ℚ) : WithTop ℚ) := by
  have ca : uniform.cdf (a : WithTop ℚ) = a := by
    show (if a < 0 then 0 else if 1 < a then 1 else a) = a
    rw [if_neg (not_lt.2 h0), if_neg (not_lt.2 (hab.le.trans h1))]
  have cb : uniform.cdf (b : WithTop ℚ) = b := by
    show (if b < 0 then 0 else if 1 < b then 1 else b) = b
    rw [if_neg (not_lt.2 (h0.trans hab.le)), if_neg (not_lt.2 h1)]
  have pp : ∀ c, a ≤ c → c ≤ b → uniform.ppf c = some ((c : ℚ) : WithTop ℚ) := by
    intro c hc hc'
    show (if 0 ≤ c ∧ c ≤ 1 then some ((c : ℚ) : WithTop ℚ) else none) = _
    rw [if_pos ⟨h0.trans hc, hc'.trans h1⟩]
  refine ⟨?_, by rw [ca, cb]; exact hab, ?_, ?_⟩
  · intro x y hxy
    induction x using WithTop.recTopCoe with
    | top => rw [top_le_iff] at hxy; rw [hxy]
    | coe x =>
      induction y using WithTop.recTopCoe with
      | top =>
        show (if x < 0 then 0 else if 1 < x then 1 else x) ≤ 1
        split_ifs <;> linarith
      | coe y =>
        rw [WithTop.coe_le_coe] at hxy
        show (if x < 0 then 0 else if 1 < x then 1 else x) ≤ (if y < 0 then 0 else if 1 < y then 1 else y)
        split_ifs <;> linarith
  · intro c hc hc'
    rw [ca] at hc; rw [cb] at hc'
    rw [pp c hc hc']
    exact ⟨⟨_, _, rfl, rfl, WithTop.coe_le_coe.2 hc⟩, ⟨_, _, rfl, rfl, WithTop.coe_le_coe.2 hc'⟩⟩
  · intro c c' hc hcc hc'
    rw [ca] at hc; rw [cb] at hc'
    rw [pp c hc (hcc.trans hc'), pp c' (hc.trans hcc) hc']
    exact ⟨_, _, rfl, rfl, WithTop.coe_le_coe.2 hcc⟩

theorem uniform_inverse (a b : ℚ) (h0 : 0 ≤ a) (hab : a < b) (h1 : b ≤ 1) :
    Spec.Inverse uniform a ((b : ℚ) : WithTop ℚ) := by
  intro c v hc hc' hv
  have ca : uniform.cdf (a : WithTop ℚ) = a := by
    show (if a < 0 then 0 else if 1 < a then 1 else a) = a
    rw [if_neg (not_lt.2 h0), if_neg (not_lt.2 (hab.le.trans h1))]
  have cb : uniform.cdf (b : WithTop ℚ) = b := by
    show (if b < 0 then 0 else if 1 < b then 1 else b) = b
    rw [if_neg (not_lt.2 (h0.trans hab.le)), if_neg (not_lt.2 h1)]
  rw [ca] at hc; rw [cb] at hc'
  have hp : uniform.ppf c = some ((c : ℚ) : WithTop ℚ) := by
    show (if 0 ≤ c ∧ c ≤ 1 then some ((c : ℚ) : WithTop ℚ) else none) = _
    rw [if_pos ⟨h0.trans hc, hc'.trans h1⟩]
  rw [hp] at hv
  cases hv
  show (if c < 0 then 0 else if 1 < c then 1 else c) = c
  rw [if_neg (not_lt.2 (h0.trans hc)), if_neg (not_lt.2 (hc'.trans h1))]

/-- The options by default, except for the missing fractions. -/
def opts (low1 high1 low2 high2 : ℚ) (e : Extrap ℚ) (rev : Bool) : Params ℚ :=
  ⟨low1, high1, low2, high2, e, e, e, e, rev⟩

/-- The values for single numbers, if the call is accepted. -/
def singles (r : Except Err (Matching ℚ)) (xs : List ℚ) : Option (List (V ℚ)) :=
  match r with
  | .ok m => some (xs.map m.p2)
  | .error _ => none

/-- The values for an array, if the call is accepted. -/
def array (r : Except Err (Matching ℚ)) (xs : List ℚ) : Option (List (V ℚ)) :=
  match r with
  | .ok m => some (m.p2s xs)
  | .error _ => none

/-! ## C43 -/

/-- A call is accepted if the fractions make sense, there is a halo, and the options are known. -/
theorem C43_accepted (cat : List K) (d : Dist K) (mn : K) (mx : WithTop K) (p : Params K)
    (hc : cat ≠ []) (h1 : 0 ≤ p.low1 ∧ 0 ≤ p.high1 ∧ p.low1 + p.high1 ≤ 1)
    (h2 : 0 ≤ p.low2 ∧ 0 ≤ p.high2 ∧ p.low2 + p.high2 ≤ 1)
    (he : p.exLow1 ≠ .bad ∧ p.exHigh1 ≠ .bad ∧ p.exLow2 ≠ .bad ∧ p.exHigh2 ≠ .bad) :
    ∃ m, amDfcat cat d mn mx p = .ok m := by
  have hchk : checkMissing p = .ok () := by
    unfold checkMissing
    rw [if_neg, if_neg, if_neg]
    · rintro (h | h)
      · exact absurd h1.2.2 (not_le.2 h)
      · exact absurd h2.2.2 (not_le.2 h)
    · simp [not_lt.2 h1.1, not_lt.2 h1.2.1, not_lt.2 h2.1, not_lt.2 h2.2.1]
    · have a1 : p.low1 ≤ 1 := by linarith
      have a2 : p.high1 ≤ 1 := by linarith
      have a3 : p.low2 ≤ 1 := by linarith
      have a4 : p.high2 ≤ 1 := by linarith
      simp [not_lt.2 a1, not_lt.2 a2, not_lt.2 a3, not_lt.2 a4]
  have hfill : ∀ (l : WithTop K) (e : Extrap K), e ≠ .bad → ∃ v, filler l e = .ok v := by
    intro l e he
    cases e
    · exact ⟨_, rfl⟩
    · exact ⟨_, rfl⟩
    · exact ⟨_, rfl⟩
    · exact absurd rfl he
  have hlen : (cat.insertionSort (· ≤ ·)).length = cat.length := List.length_insertionSort _ _
  rcases hs : cat.insertionSort (· ≤ ·) with _ | ⟨lo, los⟩
  · rw [hs] at hlen
    exact absurd (List.length_eq_zero_iff.1 hlen.symm) hc
  rcases hp : points cat p.low1 p.high1 with _ | ⟨q, qs⟩
  · have := points_fst cat p.low1 p.high1
    rw [hp, hs] at this
    cases this
  unfold amDfcat
  rw [hchk, hs, hp]
  simp only
  obtain ⟨v0, e0⟩ := hfill (lo : WithTop K) p.exLow1 he.1
  obtain ⟨v1, e1⟩ := hfill (((lo :: los).getLast (by simp) : K) : WithTop K) p.exHigh1 he.2.1
  obtain ⟨v2, e2⟩ := hfill (mn : WithTop K) p.exLow2 he.2.2.1
  obtain ⟨v3, e3⟩ := hfill mx p.exHigh2 he.2.2.2
  unfold fillers
  rw [e0, e1, e2, e3]
  exact ⟨_, rfl⟩

/-- **C43** (part: one number at a time).  The value never decreases with mass; with the reversed order it never
increases.  If a part of the target distribution is missing, the option for that side has to be `'flat'`. -/
theorem C43_monotone_partial (cat : List K) (d : Dist K) (mn : K) (mx : WithTop K) (p : Params K)
    (m : Matching K) (hd : Spec.Proper d mn mx) (h : amDfcat cat d mn mx p = .ok m)
    (hroom : p.low2 + p.high2 < 1) (hlow : p.exLow2 = .flat ∨ p.low2 = 0)
    (hhigh : p.exHigh2 = .flat ∨ p.high2 = 0) (x y : K) (hxy : x ≤ y) :
    (p.reverse = false → Spec.Le (m.p2 x) (m.p2 y)) ∧
    (p.reverse = true → Spec.Le (m.p2 y) (m.p2 x)) := by
  obtain ⟨q, qs, top, H⟩ := amDfcat_ok cat d mn mx p m h
  have hl : Spec.fill (mn : WithTop K) p.exLow2 = some (mn : WithTop K) ∨ p.low2 = 0 :=
    hlow.imp (fun e => by rw [e]; rfl) id
  have hh : Spec.fill mx p.exHigh2 = some mx ∨ p.high2 = 0 := hhigh.imp (fun e => by rw [e]; rfl) id
  have hm := cdfCat_mono H x y hxy
  have ux := cdfCat_unit H x
  have uy := cdfCat_unit H y
  rw [H.p2, H.p2]
  refine ⟨fun hr => ?_, fun hr => ?_⟩
  · rw [hr]
    exact ppfScalar_mono hd _ _ hroom _ _ hl hh _ _ ux.1 hm uy.2
  · rw [hr]
    refine ppfScalar_mono hd _ _ hroom _ _ hl hh _ _ ?_ ?_ ?_ <;> simp only [turn, if_true] <;> linarith

example : ∃ m, amDfcat [3, 1, 2] uniform 0 ((1 : ℚ) : WithTop ℚ) (opts 0 0 (1/4) 0 .flat false) = .ok m ∧
    Spec.Proper uniform 0 ((1 : ℚ) : WithTop ℚ) ∧ (1/4 : ℚ) + 0 < 1 :=
  by
  obtain ⟨m, hm⟩ := C43_accepted [3, 1, 2] uniform 0 ((1 : ℚ) : WithTop ℚ) (opts 0 0 (1/4) 0 .flat false)
    (by simp) (by norm_num [opts]) (by norm_num [opts]) (by simp [opts])
  exact ⟨m, hm, uniform_proper 0 1 (by norm_num) (by norm_num) (by norm_num), by norm_num⟩

/-- **C43** (part: one number at a time).  A halo gets the quantile of the target distribution that belongs to
its place in the catalogue, missing fractions and limits being accounted for. -/
theorem C43_quantile_partial (cat : List K) (d : Dist K) (mn : K) (mx : WithTop K) (p : Params K)
    (m : Matching K) (h : amDfcat cat d mn mx p = .ok m) (hn : 2 ≤ cat.length)
    (hroom : p.low2 + p.high2 < 1) (x q : K) (hx : x ∈ cat)
    (hq : q = if p.reverse then 1 - Spec.fraction cat p.low1 p.high1 x
      else Spec.fraction cat p.low1 p.high1 x)
    (h1 : p.low2 ≤ q) (h2 : q ≤ 1 - p.high2) :
    m.p2 x = Spec.valueAt d p.low2 p.high2 mn mx q := by
  obtain ⟨r, rs, top, H⟩ := amDfcat_ok cat d mn mx p m h
  have hc : turn p.reverse (cdfCat (r, rs) x) = q := by
    rw [cdfCat_at H x hx hn, hq]; rfl
  rw [H.p2, hc]
  exact ppfScalar_inside _ _ _ _ hroom q h1 h2

/-- For different masses the place in the catalogue is the number of lighter halos. -/
theorem C43_fraction (cat : List K) (low high x : K) (hnd : cat.Nodup) (hx : x ∈ cat) :
    Spec.fraction cat low high x
      = low + (cat.countP (fun a => decide (a < x)) : K) / ((cat.length : K) - 1) * (1 - high - low) := by
  have hc : cat.countP (fun a => decide (a ≤ x)) = cat.countP (fun a => decide (a < x)) + 1 := by
    induction cat with
    | nil => cases hx
    | cons a l ih =>
      rw [List.nodup_cons] at hnd
      rw [List.countP_cons, List.countP_cons]
      by_cases hax : a = x
      · subst hax
        have : l.countP (fun b => decide (b ≤ a)) = l.countP (fun b => decide (b < a)) := by
          refine List.countP_congr (fun b hb => ?_)
          have hne : b ≠ a := fun e => hnd.1 (e ▸ hb)
          simp only [decide_eq_true_eq]
          exact ⟨fun h => lt_of_le_of_ne h hne, le_of_lt⟩
        rw [this]
        simp
      · have hx' : x ∈ l := by
          rcases List.mem_cons.1 hx with e | e
          · exact absurd e.symm hax
          · exact e
        rw [ih hnd.2 hx']
        have : (a ≤ x) ↔ a < x := ⟨fun h => lt_of_le_of_ne h hax, le_of_lt⟩
        simp only [this]
        omega
  unfold Spec.fraction
  rw [hc]
  push_cast
  ring

example : singles (amDfcat [3, 1, 2] uniform 0 ((1 : ℚ) : WithTop ℚ) (opts (1/2) 0 (1/4) 0 .flat false)) [1, 2, 3]
    = some [some ((1/3 : ℚ) : WithTop ℚ), some ((2/3 : ℚ) : WithTop ℚ), some ((1 : ℚ) : WithTop ℚ)] := by
  decide +kernel

/-- **C43** (part).  In an array every halo gets what it gets alone, or 0. -/
theorem C43_array_partial (cat : List K) (d : Dist K) (mn : K) (mx : WithTop K) (p : Params K)
    (m : Matching K) (h : amDfcat cat d mn mx p = .ok m) (xs : List K) :
    (m.p2s xs).length = xs.length ∧
    ∀ (k : ℕ) (x : K), xs[k]? = some x →
      (m.p2s xs)[k]? = some (m.p2 x) ∨ (m.p2s xs)[k]? = some (some ((0 : K) : WithTop K)) := by
  obtain ⟨r, rs, top, H⟩ := amDfcat_ok cat d mn mx p m h
  obtain ⟨a, b, c, e, f, g⟩ := checkMissing_ok p H.check
  rw [H.p2s]
  refine ⟨by simp, ?_⟩
  intro k x hk
  rw [List.getElem?_map, hk, H.p2]
  simp only [Option.map_some]
  by_cases he : turn p.reverse (cdfCat (r, rs) x) = p.low2 ∨ turn p.reverse (cdfCat (r, rs) x) = 1 - p.high2
  · right; rw [ppfElem_edge _ _ _ _ g _ he]
  · rw [not_or] at he
    left; rw [ppfElem_eq _ _ _ _ g _ he.1 he.2]

/-- **C43** (part).  With nothing missing in the target distribution, in an array every halo between the
lightest and the heaviest one gets what it gets alone. -/
theorem C43_interior_partial (cat : List K) (d : Dist K) (mn : K) (mx : WithTop K) (p : Params K)
    (m : Matching K) (h : amDfcat cat d mn mx p = .ok m) (hroom : p.low1 + p.high1 < 1)
    (h0 : p.low2 = 0 ∧ p.high2 = 0) (xs : List K) (k : ℕ) (x : K) (hk : xs[k]? = some x)
    (hlo : ∃ a ∈ cat, a < x) (hhi : ∃ b ∈ cat, x < b) : (m.p2s xs)[k]? = some (m.p2 x) := by
  obtain ⟨r, rs, top, H⟩ := amDfcat_ok cat d mn mx p m h
  obtain ⟨a, b, c, e, f, g⟩ := checkMissing_ok p H.check
  obtain ⟨u, hu, hux⟩ := hlo
  obtain ⟨v, hv, hxv⟩ := hhi
  have hs := cdfCat_strict H hroom x (lt_of_le_of_lt (H.first u hu) hux) (lt_of_lt_of_le hxv (H.last v hv))
  rw [H.p2s, List.getElem?_map, hk, H.p2]
  simp only [Option.map_some]
  congr 1
  have h1 : 0 < turn p.reverse (cdfCat (r, rs) x) := by unfold turn; split <;> linarith [hs.1, hs.2]
  have h2 : turn p.reverse (cdfCat (r, rs) x) < 1 := by unfold turn; split <;> linarith [hs.1, hs.2]
  refine ppfElem_eq _ _ _ _ g _ ?_ ?_
  · rw [h0.1]; exact h1.ne'
  · rw [h0.2, sub_zero]; exact h2.ne

/-- **C43**, the failure: with the default missing fractions, in an array the heaviest halo and everything
heavier always get 0; and so do the lightest (if it is the only one of its mass) and everything lighter. -/
theorem C43_extremes_zero (cat : List K) (d : Dist K) (mn : K) (mx : WithTop K) (p : Params K)
    (m : Matching K) (h : amDfcat cat d mn mx p = .ok m)
    (h0 : p.low1 = 0 ∧ p.high1 = 0 ∧ p.low2 = 0 ∧ p.high2 = 0)
    (xs : List K) (k : ℕ) (x : K) (hk : xs[k]? = some x)
    (hx : (∀ a ∈ cat, a ≤ x) ∨ ((∀ a ∈ cat, x ≤ a) ∧ cat.count x ≤ 1)) :
    (m.p2s xs)[k]? = some (some ((0 : K) : WithTop K)) := by
  obtain ⟨r, rs, top, H⟩ := amDfcat_ok cat d mn mx p m h
  obtain ⟨a, b, c, e, f, g⟩ := checkMissing_ok p H.check
  have hone : cdfCat (r, rs) x = 0 ∨ cdfCat (r, rs) x = 1 := by
    by_cases hmem : x ∈ cat
    · by_cases hn : 2 ≤ cat.length
      · have hf := cdfCat_at H x hmem hn
        have hn' : ((cat.length : K) - 1) ≠ 0 := by
          have : (2 : K) ≤ cat.length := by exact_mod_cast hn
          intro h'; linarith
        rcases hx with hx | ⟨hx, hcount⟩
        · right
          have : cat.countP (fun a => decide (a ≤ x)) = cat.length :=
            List.countP_eq_length.2 (fun a ha => by simpa using hx a ha)
          rw [hf, Spec.fraction, this, h0.1, h0.2.1, div_self hn']; simp
        · left
          have h1 : cat.countP (fun a => decide (a ≤ x)) = cat.count x := by
            refine List.countP_congr (fun a ha => ?_)
            simp only [decide_eq_true_eq, beq_iff_eq]
            exact ⟨fun h => le_antisymm h (hx a ha), fun h => h.le⟩
          have h2 : 0 < cat.count x := List.count_pos_iff.2 hmem
          have h3 : cat.countP (fun a => decide (a ≤ x)) = 1 := by omega
          rw [hf, Spec.fraction, h3, h0.1]; simp
      · left
        have hp := H.pts
        have hl := congrArg List.length (points_snd cat p.low1 p.high1)
        have hs := points_snd cat p.low1 p.high1
        have hlen : cat.length = 1 := by
          have := List.length_pos_of_mem hmem; omega
        rw [hp, hlen, h0.1] at hs
        simp only [linspace, List.range_one, List.map_cons, List.map_nil, Nat.cast_zero, zero_mul,
          add_zero] at hs
        have hr : r.2 = 0 ∧ rs = [] := by
          obtain ⟨u, v⟩ := List.cons.inj hs
          exact ⟨u, by simpa using v⟩
        have hfst := (fst_of H x).2 hmem
        rw [hr.2] at hfst
        simp only [List.map_cons, List.map_nil, List.mem_singleton] at hfst
        rw [hr.2]
        simp [cdfCat, interp, interpFrom, hfst, hr.1]
    · rcases hx with hx | ⟨hx, -⟩
      · right
        exact cdfCat_above H x (fun a ha => lt_of_le_of_ne (hx a ha) (fun e => hmem (e ▸ ha)))
      · left
        exact cdfCat_below H x (fun a ha => lt_of_le_of_ne (hx a ha) (fun e => hmem (e ▸ ha)))
  rw [H.p2s, List.getElem?_map, hk]
  simp only [Option.map_some]
  rw [ppfElem_edge _ _ _ _ g]
  rw [h0.2.2.1, h0.2.2.2, sub_zero]
  unfold turn
  rcases hone with h' | h' <;> rw [h'] <;> split <;> simp

/-- **C43**, the failure in terms of order: with the default missing fractions and a target distribution of
positive values, an array with an ordinary halo and the heaviest one is not in order. -/
theorem C43_array_decreases (cat : List K) (d : Dist K) (mn : K) (mx : WithTop K) (p : Params K)
    (m : Matching K) (hd : Spec.Proper d mn mx) (h : amDfcat cat d mn mx p = .ok m)
    (h0 : p.low1 = 0 ∧ p.high1 = 0 ∧ p.low2 = 0 ∧ p.high2 = 0) (hpos : 0 < mn)
    (x y : K) (hlo : ∃ a ∈ cat, a < x) (hxy : x < y) (hy : y ∈ cat) (hmax : ∀ a ∈ cat, a ≤ y) :
    ∃ v w, m.p2s [x, y] = [v, w] ∧ Spec.Le w v ∧ ¬ Spec.Le v w := by
  have h1 := C43_interior_partial cat d mn mx p m h (by rw [h0.1, h0.2.1]; simp) ⟨h0.2.2.1, h0.2.2.2⟩
    [x, y] 0 x rfl hlo ⟨y, hy, hxy⟩
  have h2 := C43_extremes_zero cat d mn mx p m h h0 [x, y] 1 y rfl (Or.inl hmax)
  have hl := (C43_array_partial cat d mn mx p m h [x, y]).1
  obtain ⟨v, w, hvw⟩ : ∃ v w, m.p2s [x, y] = [v, w] := by
    obtain ⟨l, hl'⟩ : ∃ l, l = m.p2s [x, y] := ⟨_, rfl⟩
    rw [← hl'] at hl ⊢
    match l, hl with
    | [v, w], _ => exact ⟨v, w, rfl⟩
  rw [hvw] at h1 h2
  simp only [List.getElem?_cons_zero, Option.some.injEq, List.getElem?_cons_succ] at h1 h2
  obtain ⟨r, rs, top, H⟩ := amDfcat_ok cat d mn mx p m h
  have hu := turn_unit p.reverse _ (cdfCat_unit H x)
  have hroom : p.low2 + p.high2 < 1 := by rw [h0.2.2.1, h0.2.2.2]; simp
  have hl2 : p.low2 ≤ turn p.reverse (cdfCat (r, rs) x) := by rw [h0.2.2.1]; exact hu.1
  have hh2 : turn p.reverse (cdfCat (r, rs) x) ≤ 1 - p.high2 := by rw [h0.2.2.2, sub_zero]; exact hu.2
  obtain ⟨c, ec, c1, c2, -⟩ := cstar_between hd p.low2 p.high2 _ hroom hl2 hh2
  have hv : v = d.ppf c := by
    rw [h1, H.p2, ppfScalar, if_neg (not_lt.2 hl2), if_neg (not_lt.2 hh2), ec]; rfl
  obtain ⟨a, b, e1, e2, hab⟩ := (hd.inside c c1 c2).1
  simp only [Option.some.injEq] at e1
  have hb : (0 : WithTop K) < b := lt_of_lt_of_le (by exact_mod_cast hpos) (e1 ▸ hab)
  refine ⟨v, w, hvw, ?_, ?_⟩
  · rw [h2, hv, e2]
    exact ⟨_, _, rfl, rfl, hb.le⟩
  · rw [h2, hv, e2]
    rintro ⟨a', b', f1, f2, hab'⟩
    simp only [Option.some.injEq] at f1 f2
    rw [← f1, ← f2] at hab'
    exact absurd hab' (not_le.2 hb)

/-- A call that meets the hypotheses above. -/
theorem opts_accepted (cat : List ℚ) (hc : cat ≠ []) (mn : ℚ) (mx : WithTop ℚ) (a b c e : ℚ) (x : Extrap ℚ)
    (hx : x ≠ .bad) (rev : Bool)
    (h1 : 0 ≤ a ∧ 0 ≤ b ∧ a + b ≤ 1) (h2 : 0 ≤ c ∧ 0 ≤ e ∧ c + e ≤ 1) :
    ∃ m, amDfcat cat uniform mn mx (opts a b c e x rev) = .ok m :=
  C43_accepted _ _ _ _ _ hc h1 h2 ⟨hx, hx, hx, hx⟩

example : ∃ m, amDfcat [3, 1, 2] uniform (1/4 : ℚ) ((1 : ℚ) : WithTop ℚ) (opts 0 0 0 0 .none false) = .ok m ∧
    ∃ v w, m.p2s [2, 3] = [v, w] ∧ Spec.Le w v ∧ ¬ Spec.Le v w := by
  obtain ⟨m, hm⟩ := opts_accepted [3, 1, 2] (by simp) (1/4) ((1 : ℚ) : WithTop ℚ) 0 0 0 0 .none (by simp) false
    (by norm_num) (by norm_num)
  refine ⟨m, hm, C43_array_decreases _ _ _ _ _ m
    (uniform_proper (1/4) 1 (by norm_num) (by norm_num) (by norm_num)) hm ⟨rfl, rfl, rfl, rfl⟩ (by norm_num) 2 3
    ⟨1, by simp, by norm_num⟩ (by norm_num) (by simp) ?_⟩
  intro a ha
  fin_cases ha <;> norm_num

example : array (amDfcat [3, 1, 2] uniform (1/4 : ℚ) ((1 : ℚ) : WithTop ℚ) (opts 0 0 0 0 .flat false)) [1, 2, 3]
    = some [some ((0 : ℚ) : WithTop ℚ), some ((5/8 : ℚ) : WithTop ℚ), some ((0 : ℚ) : WithTop ℚ)] := by
  decide +kernel

example : singles (amDfcat [3, 1, 2] uniform (1/4 : ℚ) ((1 : ℚ) : WithTop ℚ) (opts 0 0 0 0 .flat false)) [1, 2, 3]
    = some [some ((1/4 : ℚ) : WithTop ℚ), some ((5/8 : ℚ) : WithTop ℚ), some ((1 : ℚ) : WithTop ℚ)] := by
  decide +kernel

/-- The full statement: the values never decrease with mass, and are the same for arrays and single numbers. -/
def C43_full : Prop :=
  ∀ (cat : List ℚ) (d : Dist ℚ) (mn : ℚ) (mx : WithTop ℚ) (p : Params ℚ) (m : Matching ℚ),
    Spec.Proper d mn mx → amDfcat cat d mn mx p = .ok m → p.low2 + p.high2 < 1 → p.exLow2 = .flat →
    p.exHigh2 = .flat → p.reverse = false →
    (∀ x y, x ≤ y → Spec.Le (m.p2 x) (m.p2 y)) ∧ ∀ xs, m.p2s xs = xs.map m.p2

/-- **C43** is false for arrays. -/
theorem C43_full_false : ¬ C43_full := by
  intro h
  obtain ⟨m, hm⟩ := opts_accepted [3, 1, 2] (by simp) (1/4) ((1 : ℚ) : WithTop ℚ) 0 0 0 0 .flat (by simp) false
    (by norm_num) (by norm_num)
  have hp := uniform_proper (1/4) 1 (by norm_num) (by norm_num) (by norm_num)
  obtain ⟨h1, h2⟩ := h _ _ _ _ _ m hp hm (by norm_num [opts]) rfl rfl rfl
  obtain ⟨v, w, e, -, hn⟩ := C43_array_decreases _ _ _ _ _ m hp hm ⟨rfl, rfl, rfl, rfl⟩ (by norm_num) 2 3
    ⟨1, by simp, by norm_num⟩ (by norm_num) (by simp) (by intro a ha; fin_cases ha <;> norm_num)
  rw [h2] at e
  simp only [List.map_cons, List.map_nil, List.cons.injEq, and_true] at e
  rw [← e.1, ← e.2] at hn
  exact hn (h1 2 3 (by norm_num))

/-! ## The other direction -/

theorem cdfElem_eq (d : Dist K) (low high mn : K) (mx : WithTop K) (h : (mn : WithTop K) ≤ mx) (x : K) :
    cdfElem d low high mn mx x = cdfScalar d low high mn mx x := by
  unfold cdfElem cdfScalar
  simp only
  by_cases h1 : x < mn
  · have h2 : ¬ mx < (x : WithTop K) :=
      not_lt.2 ((WithTop.coe_le_coe.2 h1.le).trans h)
    rw [if_neg h2, if_pos h1, if_pos h1]
  · by_cases h2 : mx < (x : WithTop K)
    · rw [if_pos h2, if_neg h1, if_pos h2]
    · rw [if_neg h2, if_neg h1, if_neg h1, if_neg h2]

/-- **C43** (part).  The catalogue's property as a function of the other one is the same for arrays and for single
numbers. -/
theorem C43_back_array (cat : List K) (d : Dist K) (mn : K) (mx : WithTop K) (p : Params K)
    (m : Matching K) (h : amDfcat cat d mn mx p = .ok m) (hm : (mn : WithTop K) ≤ mx) (ys : List K) :
    m.p1s ys = ys.map m.p1 := by
  obtain ⟨r, rs, top, H⟩ := amDfcat_ok cat d mn mx p m h
  rw [H.p1s]
  refine List.map_congr_left (fun y _ => ?_)
  rw [H.p1, cdfElem_eq d _ _ _ _ hm]

theorem turn_turn (r : Bool) (c : K) : turn r (turn r c) = c := by
  cases r <;> simp [turn]

/-- The missing fractions of the two properties belong together. -/
def Paired (p : Params K) : Prop :=
  if p.reverse then p.low1 = p.high2 ∧ p.high1 = p.low2 else p.low1 = p.low2 ∧ p.high1 = p.high2

theorem paired_turn (p : Params K) (h : Paired p) (c : K) (h1 : p.low1 ≤ c) (h2 : c ≤ 1 - p.high1) :
    p.low2 ≤ turn p.reverse c ∧ turn p.reverse c ≤ 1 - p.high2 := by
  unfold Paired at h
  unfold turn
  by_cases hr : p.reverse = true
  · rw [if_pos hr] at h ⊢
    exact ⟨by linarith [h.2], by linarith [h.1]⟩
  · rw [if_neg hr] at h ⊢
    exact ⟨by linarith [h.1], by linarith [h.2]⟩

theorem paired_room (p : Params K) (h : Paired p) (h1 : p.low1 + p.high1 < 1) : p.low2 + p.high2 < 1 := by
  unfold Paired at h
  by_cases hr : p.reverse = true
  · rw [if_pos hr] at h; linarith [h.1, h.2]
  · rw [if_neg hr] at h; linarith [h.1, h.2]

/-- The cumulative fraction of the value found at a fraction is this fraction. -/
theorem cdf_of_ppf {d : Dist K} {mn : K} {mx : WithTop K} (hd : Spec.Proper d mn mx) (hi : Spec.Inverse d mn mx)
    (low high : K) (fLow fHigh : V K) (hroom : low + high < 1) (c : K) (h1 : low ≤ c) (h2 : c ≤ 1 - high)
    (v : K) (hv : ppfScalar d low high mn mx fLow fHigh c = some (v : WithTop K)) :
    cdfScalar d low high mn mx v = some c := by
  obtain ⟨s, es, s1, s2, e⟩ := cstar_between hd low high c hroom h1 h2
  rw [ppfScalar, if_neg (not_lt.2 h1), if_neg (not_lt.2 h2), es] at hv
  have hv' : d.ppf s = some (v : WithTop K) := hv
  have hF := hi s _ s1 s2 hv'
  obtain ⟨⟨a, b, a1, a2, a3⟩, ⟨a', b', b1, b2, b3⟩⟩ := hd.inside s s1 s2
  rw [hv'] at a2 b1
  simp only [Option.some.injEq] at a1 a2 b1 b2
  rw [← a1, ← a2] at a3
  rw [← b1, ← b2] at b3
  have hspread := hd.spread
  have hne : d.cdf mx - d.cdf mn ≠ 0 := by intro h; linarith
  have hw : 1 - high - low ≠ 0 := by intro h; linarith
  rw [cdfScalar, if_neg (not_lt.2 (WithTop.coe_le_coe.1 a3)), if_neg (not_lt.2 b3), if_neg hne, hF, e]
  congr 1
  field_simp
  ring

/-- **C86**, catalogue and distribution: going to the other property and back returns the original value, for
every value between the lightest and the heaviest halo. -/
theorem C86_catalogue (cat : List K) (d : Dist K) (mn : K) (mx : WithTop K) (p : Params K)
    (m : Matching K) (hd : Spec.Proper d mn mx) (hi : Spec.Inverse d mn mx)
    (h : amDfcat cat d mn mx p = .ok m) (hnd : cat.Nodup) (hroom : p.low1 + p.high1 < 1) (hp : Paired p)
    (x : K) (hlo : ∃ a ∈ cat, a ≤ x) (hhi : ∃ b ∈ cat, x ≤ b) (v : K) (hv : m.p2 x = some (v : WithTop K)) :
    m.p1 v = some (x : WithTop K) := by
  obtain ⟨q, qs, top, H⟩ := amDfcat_ok cat d mn mx p m h
  obtain ⟨a, b, c, e, f, g⟩ := checkMissing_ok p H.check
  obtain ⟨u, hu, hux⟩ := hlo
  obtain ⟨w, hw, hxw⟩ := hhi
  have hx1 : q.1 ≤ x := (H.first u hu).trans hux
  have hx2 : x ≤ top := hxw.trans (H.last w hw)
  have hin := cdfCat_within H x hx1 hx2
  obtain ⟨t1, t2⟩ := paired_turn p hp _ hin.1 hin.2
  rw [H.p2] at hv
  have hc := cdf_of_ppf hd hi _ _ _ _ (paired_room p hp hroom) _ t1 t2 v hv
  rw [H.p1, hc]
  simp only [Option.bind_some]
  rw [turn_turn]
  obtain ⟨l, hl, htop⟩ := H.lastPt
  have hs2 : Strict2 (q :: qs) := by rw [← H.pts]; exact points_strict2 _ _ _ (by linarith)
  have hs1 : (q :: qs).Pairwise (fun a b => a.1 < b.1) := by
    have hsort : ((q :: qs).map Prod.fst).Pairwise (· ≤ ·) := by
      rw [← H.pts, points_fst]; exact List.pairwise_insertionSort _ _
    have hnd' : ((q :: qs).map Prod.fst).Nodup := by
      rw [← H.pts, points_fst]; exact (List.perm_insertionSort (· ≤ ·) cat).nodup_iff.2 hnd
    rw [List.pairwise_map] at hsort
    rw [List.Nodup, List.pairwise_map] at hnd'
    exact (hsort.and hnd').imp (fun h => lt_of_le_of_ne h.1 h.2)
  have hc' : cdfCat (q, qs) x = interpFrom id 1 x q qs := by
    unfold cdfCat interp; rw [if_neg (not_lt.2 hx1)]
  unfold ppfCat interp
  have hq2 : ¬ cdfCat (q, qs) x < q.swap.1 := by
    rw [hc']
    refine not_lt.2 (interpFrom_ge id (· ≤ ·) 1 (fun a b h => h) (fun a b c => le_trans) x q qs (incr_of H) ?_ hx1)
    exact fun r hr => ((snd_of H) r hr).2.trans (by linarith)
  simp only
  rw [if_neg hq2, hc']
  exact interpFrom_inverse _ 1 _ x q qs hs1 hs2 (fun r hr => ((snd_of H) r hr).2.trans (by linarith)) l hl hx1
    (htop ▸ hx2)

example : ∃ m, amDfcat [3, 1, 2] uniform (1/4 : ℚ) ((1 : ℚ) : WithTop ℚ) (opts (1/5) 0 0 (1/5) .none true) = .ok m ∧
    Paired (opts (1/5) 0 0 (1/5) .none true) ∧ (∃ a ∈ [(3 : ℚ), 1, 2], a ≤ 5/2) ∧ (∃ a ∈ [(3 : ℚ), 1, 2], 5/2 ≤ a) := by
  obtain ⟨m, hm⟩ := opts_accepted [3, 1, 2] (by simp) (1/4) ((1 : ℚ) : WithTop ℚ) (1/5) 0 0 (1/5) .none (by simp) true
    (by norm_num) (by norm_num)
  exact ⟨m, hm, by simp [Paired, opts], ⟨1, by simp, by norm_num⟩, ⟨3, by simp, by norm_num⟩⟩

example : singles (amDfcat [3, 1, 2] uniform (1/4 : ℚ) ((1 : ℚ) : WithTop ℚ) (opts (1/5) 0 0 (1/5) .none true))
    [1, 2, 5/2, 3] = some [some ((1 : ℚ) : WithTop ℚ), some ((5/8 : ℚ) : WithTop ℚ),
      some ((7/16 : ℚ) : WithTop ℚ), some ((1/4 : ℚ) : WithTop ℚ)] := by
  decide +kernel

/-! ### Two distributions -/

theorem amDfdf_ok (d1 d2 : Dist K) (mn1 : K) (mx1 : WithTop K) (mn2 : K) (mx2 : WithTop K) (p : Params K)
    (m : Matching K) (h : amDfdf d1 d2 mn1 mx1 mn2 mx2 p = .ok m) :
    checkMissing p = .ok () ∧
    (∀ x, m.p2 x = (cdfScalar d1 p.low1 p.high1 mn1 mx1 x).bind (fun c =>
      ppfScalar d2 p.low2 p.high2 mn2 mx2 (Spec.fill (mn2 : WithTop K) p.exLow2) (Spec.fill mx2 p.exHigh2)
        (turn p.reverse c))) ∧
    (∀ xs, m.p2s xs = xs.map (fun x => ppfElemNan d2 p.low2 p.high2 mn2 mx2
      (Spec.fill (mn2 : WithTop K) p.exLow2) (Spec.fill mx2 p.exHigh2) p.reverse
      (cdfElem d1 p.low1 p.high1 mn1 mx1 x))) ∧
    (∀ y, m.p1 y = (cdfScalar d2 p.low2 p.high2 mn2 mx2 y).bind (fun c =>
      ppfScalar d1 p.low1 p.high1 mn1 mx1 (Spec.fill (mn2 : WithTop K) p.exLow2) (Spec.fill mx2 p.exHigh2)
        (turn p.reverse c))) ∧
    (∀ ys, m.p1s ys = ys.map (fun y => ppfElemNan d1 p.low1 p.high1 mn1 mx1
      (Spec.fill (mn2 : WithTop K) p.exLow2) (Spec.fill mx2 p.exHigh2) p.reverse
      (cdfElem d2 p.low2 p.high2 mn2 mx2 y))) := by
  unfold amDfdf at h
  rcases hc : checkMissing p with e | u
  · rw [hc] at h; cases h
  rw [hc] at h
  simp only at h
  rcases hf : fillers p (mn1 : WithTop K) mx1 (mn2 : WithTop K) mx2 with e | f
  · rw [hf] at h; cases h
  rw [hf] at h
  simp only [Except.ok.injEq] at h
  obtain ⟨e0, e1, e2, e3⟩ := fillers_ok _ _ _ _ _ _ hf
  refine ⟨rfl, ?_, ?_, ?_, ?_⟩ <;> intro x <;> rw [← h, ← e2, ← e3]

/-- The fraction of a value between the limits. -/
theorem cdfScalar_inside {d : Dist K} {mn : K} {mx : WithTop K} (hd : Spec.Proper d mn mx) (low high : K)
    (hroom : low + high ≤ 1) (x : K) (h1 : mn ≤ x) (h2 : (x : WithTop K) ≤ mx) :
    ∃ c, cdfScalar d low high mn mx x = some c ∧ low ≤ c ∧ c ≤ 1 - high ∧
      c = low + (d.cdf x - d.cdf mn) / (d.cdf mx - d.cdf mn) * (1 - high - low) := by
  have hs := hd.spread
  have hw : 0 < d.cdf mx - d.cdf mn := by linarith
  have b1 := hd.mono mn x (WithTop.coe_le_coe.2 h1)
  have b2 := hd.mono x mx h2
  have r0 : 0 ≤ (d.cdf x - d.cdf mn) / (d.cdf mx - d.cdf mn) := div_nonneg (by linarith) hw.le
  have r1 : (d.cdf x - d.cdf mn) / (d.cdf mx - d.cdf mn) ≤ 1 := by rw [div_le_one hw]; linarith
  refine ⟨_, by rw [cdfScalar, if_neg (not_lt.2 h1), if_neg (not_lt.2 h2), if_neg hw.ne'], ?_, ?_, rfl⟩
  · nlinarith [mul_nonneg r0 (show (0 : K) ≤ 1 - high - low by linarith)]
  · nlinarith [mul_le_mul_of_nonneg_right r1 (show (0 : K) ≤ 1 - high - low by linarith)]

/-- **C86**, two distributions: going to the other property and back returns the original value, for every
value between the limits whose fraction determines it. -/
theorem C86_distributions (d1 d2 : Dist K) (mn1 : K) (mx1 : WithTop K) (mn2 : K) (mx2 : WithTop K)
    (p : Params K) (m : Matching K) (hd1 : Spec.Proper d1 mn1 mx1) (hd2 : Spec.Proper d2 mn2 mx2)
    (hi : Spec.Inverse d2 mn2 mx2) (h : amDfdf d1 d2 mn1 mx1 mn2 mx2 p = .ok m)
    (hroom : p.low1 + p.high1 < 1) (hp : Paired p) (x : K) (hlo : mn1 ≤ x) (hhi : (x : WithTop K) ≤ mx1)
    (hx : d1.ppf (d1.cdf x) = some (x : WithTop K)) (v : K) (hv : m.p2 x = some (v : WithTop K)) :
    m.p1 v = some (x : WithTop K) := by
  obtain ⟨hc, e2, -, e1, -⟩ := amDfdf_ok d1 d2 mn1 mx1 mn2 mx2 p m h
  obtain ⟨c, ec, c1, c2, hce⟩ := cdfScalar_inside hd1 p.low1 p.high1 hroom.le x hlo hhi
  obtain ⟨t1, t2⟩ := paired_turn p hp c c1 c2
  rw [e2, ec] at hv
  simp only [Option.bind_some] at hv
  have hb := cdf_of_ppf hd2 hi _ _ _ _ (paired_room p hp hroom) _ t1 t2 v hv
  rw [e1, hb]
  simp only [Option.bind_some]
  rw [turn_turn, ppfScalar_inside _ _ _ _ hroom c c1 c2, Spec.valueAt, hce]
  have hs := hd1.spread
  have hne : d1.cdf mx1 - d1.cdf mn1 ≠ 0 := by intro h; linarith
  have hw : 1 - p.low1 - p.high1 ≠ 0 := by intro h; linarith
  have hw' : 1 - p.high1 - p.low1 ≠ 0 := by intro h; linarith
  have : d1.cdf mn1 + (p.low1 + (d1.cdf x - d1.cdf mn1) / (d1.cdf mx1 - d1.cdf mn1) * (1 - p.high1 - p.low1)
      - p.low1) / (1 - p.low1 - p.high1) * (d1.cdf mx1 - d1.cdf mn1) = d1.cdf x := by
    have e : 1 - p.high1 - p.low1 = 1 - p.low1 - p.high1 := by ring
    rw [e]
    field_simp
    ring
  rw [this, hx]

/-- The values for single numbers there and back, if the call is accepted. -/
def thereAndBack (r : Except Err (Matching ℚ)) (xs : List ℚ) : Option (List (V ℚ)) :=
  match r with
  | .ok m => some (xs.map (fun x => match m.p2 x with
      | some (some v) => m.p1 v
      | _ => none))
  | .error _ => none

example : thereAndBack (amDfdf uniform uniform (1/4) ((1 : ℚ) : WithTop ℚ) (1/2) ((1 : ℚ) : WithTop ℚ)
    (opts (1/5) 0 0 (1/5) .flat true)) [1/4, 1/3, 1] = some [some ((1/4 : ℚ) : WithTop ℚ),
      some ((1/3 : ℚ) : WithTop ℚ), some ((1 : ℚ) : WithTop ℚ)] := by
  decide +kernel

theorem cdfScalar_unit {d : Dist K} {mn : K} {mx : WithTop K} (hd : Spec.Proper d mn mx) (low high : K)
    (h0 : 0 ≤ low) (h0' : 0 ≤ high) (hroom : low + high ≤ 1) (x : K) :
    ∃ c, cdfScalar d low high mn mx x = some c ∧ 0 ≤ c ∧ c ≤ 1 := by
  by_cases h1 : x < mn
  · exact ⟨0, by rw [cdfScalar, if_pos h1], le_rfl, zero_le_one⟩
  · by_cases h2 : mx < (x : WithTop K)
    · exact ⟨1, by rw [cdfScalar, if_neg h1, if_pos h2], zero_le_one, le_rfl⟩
    · obtain ⟨c, e, c1, c2, -⟩ := cdfScalar_inside hd low high hroom x (not_lt.1 h1) (not_lt.1 h2)
      exact ⟨c, e, h0.trans c1, c2.trans (by linarith)⟩

theorem cdfScalar_mono {d : Dist K} {mn : K} {mx : WithTop K} (hd : Spec.Proper d mn mx) (low high : K)
    (h0 : 0 ≤ low) (h0' : 0 ≤ high) (hroom : low + high ≤ 1) (x y : K) (hxy : x ≤ y) (c c' : K)
    (hc : cdfScalar d low high mn mx x = some c) (hc' : cdfScalar d low high mn mx y = some c') : c ≤ c' := by
  obtain ⟨u, eu, u0, u1⟩ := cdfScalar_unit hd low high h0 h0' hroom x
  obtain ⟨u', eu', u0', u1'⟩ := cdfScalar_unit hd low high h0 h0' hroom y
  rw [hc] at eu; rw [hc'] at eu'
  cases eu; cases eu'
  by_cases h1 : x < mn
  · rw [cdfScalar, if_pos h1] at hc
    cases hc
    exact u0'
  · have hy1 : ¬ y < mn := not_lt.2 ((not_lt.1 h1).trans hxy)
    by_cases hy2 : mx < (y : WithTop K)
    · rw [cdfScalar, if_neg hy1, if_pos hy2] at hc'
      cases hc'
      exact u1
    · have h2 : ¬ mx < (x : WithTop K) := not_lt.2 ((WithTop.coe_le_coe.2 hxy).trans (not_lt.1 hy2))
      obtain ⟨a, ea, -, -, ea'⟩ := cdfScalar_inside hd low high hroom x (not_lt.1 h1) (not_lt.1 h2)
      obtain ⟨b, eb, -, -, eb'⟩ := cdfScalar_inside hd low high hroom y (not_lt.1 hy1) (not_lt.1 hy2)
      rw [hc] at ea; rw [hc'] at eb
      cases ea; cases eb
      have hs := hd.spread
      have hw : 0 < d.cdf mx - d.cdf mn := by linarith
      have hm := hd.mono x y (WithTop.coe_le_coe.2 hxy)
      have hdiv : (d.cdf x - d.cdf mn) / (d.cdf mx - d.cdf mn) ≤ (d.cdf y - d.cdf mn) / (d.cdf mx - d.cdf mn) :=
        div_le_div_of_nonneg_right (by linarith) hw.le
      rw [ea', eb']
      have := mul_le_mul_of_nonneg_right hdiv (show (0 : K) ≤ 1 - high - low by linarith)
      linarith

/-- **C43** (part), two distributions, one number at a time: the value never decreases. -/
theorem C43_distributions_partial (d1 d2 : Dist K) (mn1 : K) (mx1 : WithTop K) (mn2 : K) (mx2 : WithTop K)
    (p : Params K) (m : Matching K) (hd1 : Spec.Proper d1 mn1 mx1) (hd2 : Spec.Proper d2 mn2 mx2)
    (h : amDfdf d1 d2 mn1 mx1 mn2 mx2 p = .ok m)
    (hroom : p.low2 + p.high2 < 1) (hlow : p.exLow2 = .flat ∨ p.low2 = 0)
    (hhigh : p.exHigh2 = .flat ∨ p.high2 = 0) (x y : K) (hxy : x ≤ y) :
    (p.reverse = false → Spec.Le (m.p2 x) (m.p2 y)) ∧
    (p.reverse = true → Spec.Le (m.p2 y) (m.p2 x)) := by
  obtain ⟨hc, e2, -, -, -⟩ := amDfdf_ok d1 d2 mn1 mx1 mn2 mx2 p m h
  obtain ⟨a, b, c, e, f, g⟩ := checkMissing_ok p hc
  have hl : Spec.fill (mn2 : WithTop K) p.exLow2 = some (mn2 : WithTop K) ∨ p.low2 = 0 :=
    hlow.imp (fun e => by rw [e]; rfl) id
  have hh : Spec.fill mx2 p.exHigh2 = some mx2 ∨ p.high2 = 0 := hhigh.imp (fun e => by rw [e]; rfl) id
  obtain ⟨u, eu, u0, u1⟩ := cdfScalar_unit hd1 p.low1 p.high1 a b f x
  obtain ⟨w, ew, w0, w1⟩ := cdfScalar_unit hd1 p.low1 p.high1 a b f y
  have hm := cdfScalar_mono hd1 p.low1 p.high1 a b f x y hxy u w eu ew
  rw [e2, e2, eu, ew]
  simp only [Option.bind_some]
  refine ⟨fun hr => ?_, fun hr => ?_⟩
  · rw [hr]
    exact ppfScalar_mono hd2 _ _ hroom _ _ hl hh _ _ u0 hm w1
  · rw [hr]
    refine ppfScalar_mono hd2 _ _ hroom _ _ hl hh _ _ ?_ ?_ ?_ <;> simp only [turn, if_true] <;> linarith

/-! ## C87: values without a counterpart -/

/-- A distribution without any counts between its limits: a value between them has no counterpart.  Alone it gives
NaN, as an element of an array it gives zero, whatever the options are. -/
theorem C87_empty_range (d1 d2 : Dist K) (mn1 : K) (mx1 : WithTop K) (mn2 : K) (mx2 : WithTop K) (p : Params K)
    (m : Matching K) (h : amDfdf d1 d2 mn1 mx1 mn2 mx2 p = .ok m) (hd : d1.cdf mx1 = d1.cdf mn1) (x : K)
    (h1 : mn1 ≤ x) (h2 : (x : WithTop K) ≤ mx1) (xs : List K) (k : ℕ) (hk : xs[k]? = some x) :
    m.p2 x = none ∧ (m.p2s xs)[k]? = some (some ((0 : K) : WithTop K)) := by
  obtain ⟨-, e1, e2, -, -⟩ := amDfdf_ok d1 d2 mn1 mx1 mn2 mx2 p m h
  constructor
  · rw [e1, cdfScalar, if_neg (not_lt.2 h1), if_neg (not_lt.2 h2), if_pos (by rw [hd, sub_self])]
    rfl
  · rw [e2, List.getElem?_map, hk]
    have : cdfElem d1 p.low1 p.high1 mn1 mx1 x = none := by
      unfold cdfElem
      simp only [hd, sub_self, if_true]
      rw [if_neg (not_lt.2 h2), if_neg (not_lt.2 h1)]
    rw [Option.map_some, this]
    rfl

/-- **C87** (part).  A halo lighter (heavier) than the whole catalogue gets what the option of the target property
says, if a part of the target distribution is missing on that side — alone or in an array. -/
theorem C87_catalogue_partial (cat : List K) (d : Dist K) (mn : K) (mx : WithTop K) (p : Params K)
    (m : Matching K) (h : amDfcat cat d mn mx p = .ok m) (hr : p.reverse = false) (x : K) :
    ((∀ a ∈ cat, x < a) → 0 < p.low2 →
      m.p2 x = Spec.fill (mn : WithTop K) p.exLow2 ∧ m.p2s [x] = [Spec.fill (mn : WithTop K) p.exLow2]) ∧
    ((∀ a ∈ cat, a < x) → 0 < p.high2 →
      m.p2 x = Spec.fill mx p.exHigh2 ∧ m.p2s [x] = [Spec.fill mx p.exHigh2]) := by
  obtain ⟨q, qs, top, H⟩ := amDfcat_ok cat d mn mx p m h
  obtain ⟨a, b, c, e, f, g⟩ := checkMissing_ok p H.check
  constructor
  · intro hx h0
    have hc := cdfCat_below H x hx
    have hs : ppfScalar d p.low2 p.high2 mn mx (Spec.fill (mn : WithTop K) p.exLow2) (Spec.fill mx p.exHigh2) 0
        = Spec.fill (mn : WithTop K) p.exLow2 := by rw [ppfScalar, if_pos h0]
    rw [H.p2, H.p2s, hr]
    simp only [turn, List.map_cons, List.map_nil, hc]
    refine ⟨by simpa using hs, ?_⟩
    by_cases he : (0 : K) = 1 - p.high2
    · exact absurd he (by intro h'; linarith)
    · simp only [Bool.false_eq_true, if_false]
      rw [ppfElem_eq _ _ _ _ g 0 h0.ne he, hs]
  · intro hx h0
    have hc := cdfCat_above H x hx
    have h1 : ¬ (1 : K) < p.low2 := not_lt.2 (by linarith)
    have h2 : (1 : K) > 1 - p.high2 := by linarith
    have hs : ppfScalar d p.low2 p.high2 mn mx (Spec.fill (mn : WithTop K) p.exLow2) (Spec.fill mx p.exHigh2) 1
        = Spec.fill mx p.exHigh2 := by rw [ppfScalar, if_neg h1, if_pos h2]
    rw [H.p2, H.p2s, hr]
    simp only [turn, List.map_cons, List.map_nil, hc]
    refine ⟨by simpa using hs, ?_⟩
    simp only [Bool.false_eq_true, if_false]
    rw [ppfElem_eq _ _ _ _ g 1 (by intro h'; linarith) (by intro h'; linarith), hs]

/-- **C87** (part).  A value of the target property outside its limits gets what the option of the
catalogue's property says, if a part of the catalogue is missing on that side. -/
theorem C87_back_partial (cat : List K) (d : Dist K) (mn : K) (mx : WithTop K) (p : Params K)
    (m : Matching K) (h : amDfcat cat d mn mx p = .ok m) (hr : p.reverse = false)
    (hm : (mn : WithTop K) ≤ mx) (y : K) :
    (y < mn → 0 < p.low1 → ∃ lo ∈ cat, (∀ a ∈ cat, lo ≤ a) ∧ m.p1 y = Spec.fill (lo : WithTop K) p.exLow1) ∧
    (mx < (y : WithTop K) → 0 < p.high1 → ∃ hi ∈ cat, (∀ a ∈ cat, a ≤ hi) ∧
      m.p1 y = Spec.fill (hi : WithTop K) p.exHigh1) := by
  obtain ⟨q, qs, top, H⟩ := amDfcat_ok cat d mn mx p m h
  obtain ⟨a, b, c, e, f, g⟩ := checkMissing_ok p H.check
  constructor
  · intro hy h0
    refine ⟨q.1, H.firstMem, H.first, ?_⟩
    rw [H.p1, cdfScalar, if_pos hy, hr]
    have : (0 : K) < q.swap.1 := lt_of_lt_of_le h0 (snd_of H q (by simp)).1
    simp only [Option.bind_some, turn, Bool.false_eq_true, if_false, ppfCat, interp]
    rw [if_pos this]
  · intro hy h0
    refine ⟨top, H.lastMem, H.last, ?_⟩
    have h1 : ¬ y < mn := by
      intro h'
      exact absurd (hy.trans (WithTop.coe_lt_coe.2 h')) (not_lt.2 hm)
    have hsnd : ∀ r ∈ q :: qs, r.2 < 1 := fun r hr => lt_of_le_of_lt (snd_of H r hr).2 (by linarith)
    have h2 : ¬ (1 : K) < q.swap.1 := not_lt.2 (hsnd q (by simp)).le
    rw [H.p1, cdfScalar, if_neg h1, if_pos hy, hr]
    simp only [Option.bind_some, turn, Bool.false_eq_true, if_false, ppfCat, interp]
    rw [if_neg h2]
    refine interpFrom_beyond _ _ _ _ _ ?_
    intro r hr'
    rcases List.mem_cons.1 hr' with rfl | hr'
    · exact hsnd q (by simp)
    · obtain ⟨s, hs, rfl⟩ := List.mem_map.1 hr'
      exact hsnd s (by simp [hs])

example : singles (amDfcat [3, 1, 2] uniform (1/4 : ℚ) ((1 : ℚ) : WithTop ℚ)
    { opts 0 0 (1/10) (1/5) .flat false with exHigh2 := .value (some ((7 : ℚ) : WithTop ℚ)) }) [0, 4]
    = some [some ((1/4 : ℚ) : WithTop ℚ), some ((7 : ℚ) : WithTop ℚ)] := by
  decide +kernel

/-- Without missing fractions the fillers are never used. -/
theorem ppfScalar_fill (d : Dist K) (mn : K) (mx : WithTop K) (f g f' g' : V K) (c : K)
    (h : 0 ≤ c ∧ c ≤ 1) :
    ppfScalar d 0 0 mn mx f g c = ppfScalar d 0 0 mn mx f' g' c ∧
    ppfElem d 0 0 mn mx f g c = ppfElem d 0 0 mn mx f' g' c := by
  have h1 : ¬ c < 0 := not_lt.2 h.1
  have h2 : ¬ c > 1 - 0 := by rw [sub_zero]; exact not_lt.2 h.2
  simp only [ppfScalar, ppfElem, if_neg h1, if_neg h2, and_self]

/-- **C87**, the failure: with the default missing fractions the options of the target property have no effect at
all — not for halos outside the catalogue either. -/
theorem C87_options_ignored (cat : List K) (d : Dist K) (mn : K) (mx : WithTop K) (p p' : Params K)
    (m m' : Matching K) (h : amDfcat cat d mn mx p = .ok m) (h' : amDfcat cat d mn mx p' = .ok m')
    (h2 : p.low2 = 0 ∧ p.high2 = 0) (hsame : ∃ a b c e, p' = { p with
      exLow1 := a, exHigh1 := b, exLow2 := c, exHigh2 := e }) :
    (∀ x, m'.p2 x = m.p2 x) ∧ (∀ xs, m'.p2s xs = m.p2s xs) := by
  obtain ⟨a, b, c, e, rfl⟩ := hsame
  obtain ⟨q, qs, top, H⟩ := amDfcat_ok cat d mn mx p m h
  obtain ⟨q', qs', top', H'⟩ := amDfcat_ok cat d mn mx _ m' h'
  have hpts : q' :: qs' = q :: qs := by rw [← H.pts, ← H'.pts]
  obtain ⟨rfl, rfl⟩ := List.cons.inj hpts
  refine ⟨fun x => ?_, fun xs => ?_⟩
  · have hu := turn_unit p.reverse _ (cdfCat_unit H x)
    rw [H.p2, H'.p2]
    simp only [h2.1, h2.2]
    exact (ppfScalar_fill d mn mx _ _ _ _ _ hu).1
  · rw [H.p2s, H'.p2s]
    refine List.map_congr_left (fun x _ => ?_)
    have hu := turn_unit p.reverse _ (cdfCat_unit H x)
    simp only [h2.1, h2.2]
    exact (ppfScalar_fill d mn mx _ _ _ _ _ hu).2

/-- **C87**, the failure for two distributions: below the limit of the second property the first one gets the value
chosen for the *second* property, whatever was chosen for the first. -/
theorem C87_wrong_option (d1 d2 : Dist K) (mn1 : K) (mx1 : WithTop K) (mn2 : K) (mx2 : WithTop K)
    (p : Params K) (m : Matching K) (h : amDfdf d1 d2 mn1 mx1 mn2 mx2 p = .ok m) (hr : p.reverse = false)
    (h0 : 0 < p.low1) (y : K) (hy : y < mn2) : m.p1 y = Spec.fill (mn2 : WithTop K) p.exLow2 := by
  obtain ⟨hc, -, -, e1, -⟩ := amDfdf_ok d1 d2 mn1 mx1 mn2 mx2 p m h
  rw [e1, cdfScalar, if_pos hy, hr]
  simp [turn, ppfScalar, h0]

/-- The full statement: the option of the property asked for says what values outside get. -/
def C87_full : Prop :=
  (∀ (cat : List ℚ) (d : Dist ℚ) (mn : ℚ) (mx : WithTop ℚ) (p : Params ℚ) (m : Matching ℚ),
    Spec.Proper d mn mx → amDfcat cat d mn mx p = .ok m → p.reverse = false →
    ∀ x, (∀ a ∈ cat, x < a) → m.p2 x = Spec.fill (mn : WithTop ℚ) p.exLow2) ∧
  (∀ (d1 d2 : Dist ℚ) (mn1 : ℚ) (mx1 : WithTop ℚ) (mn2 : ℚ) (mx2 : WithTop ℚ) (p : Params ℚ) (m : Matching ℚ),
    Spec.Proper d1 mn1 mx1 → Spec.Proper d2 mn2 mx2 → amDfdf d1 d2 mn1 mx1 mn2 mx2 p = .ok m →
    p.reverse = false → ∀ y, y < mn2 → m.p1 y = Spec.fill (mn1 : WithTop ℚ) p.exLow1)

/-- **C87** is false. -/
theorem C87_full_false : ¬ C87_full := by
  rintro ⟨h, -⟩
  obtain ⟨m, hm⟩ := opts_accepted [3, 1, 2] (by simp) (1/4) ((1 : ℚ) : WithTop ℚ) 0 0 0 0 .none (by simp) false
    (by norm_num) (by norm_num)
  obtain ⟨m', hm'⟩ := opts_accepted [3, 1, 2] (by simp) (1/4) ((1 : ℚ) : WithTop ℚ) 0 0 0 0 .flat (by simp) false
    (by norm_num) (by norm_num)
  have hp := uniform_proper (1/4) 1 (by norm_num) (by norm_num) (by norm_num)
  have hx : ∀ a ∈ [(3 : ℚ), 1, 2], 0 < a := by intro a ha; fin_cases ha <;> norm_num
  have e := h _ _ _ _ _ m hp hm rfl 0 hx
  have e' := h _ _ _ _ _ m' hp hm' rfl 0 hx
  have := (C87_options_ignored _ _ _ _ _ _ m m' hm hm' ⟨rfl, rfl⟩ ⟨.flat, .flat, .flat, .flat, rfl⟩).1 0
  rw [e, e'] at this
  cases this

/-- The second half is false too. -/
theorem C87_distributions_false : ∃ (m : Matching ℚ) (p : Params ℚ),
    amDfdf uniform uniform (1/4) ((1 : ℚ) : WithTop ℚ) (1/2) ((1 : ℚ) : WithTop ℚ) p = .ok m ∧
    p.reverse = false ∧ p.exLow1 = .flat ∧ p.exLow2 = .flat ∧
    m.p1 0 = some ((1/2 : ℚ) : WithTop ℚ) ∧ Spec.fill ((1/4 : ℚ) : WithTop ℚ) p.exLow1 = some ((1/4 : ℚ) : WithTop ℚ) := by
  have hm : ∃ m, amDfdf uniform uniform (1/4) ((1 : ℚ) : WithTop ℚ) (1/2) ((1 : ℚ) : WithTop ℚ)
      (opts (1/5) 0 0 0 .flat false) = .ok m := by
    have hc : checkMissing (opts (1/5) 0 0 0 .flat false) = .ok () := by
      unfold checkMissing; norm_num [opts]
    unfold amDfdf
    rw [hc]
    exact ⟨_, rfl⟩
  obtain ⟨m, hm⟩ := hm
  refine ⟨m, _, hm, rfl, rfl, rfl, ?_, rfl⟩
  rw [C87_wrong_option _ _ _ _ _ _ _ m hm rfl (by norm_num [opts]) 0 (by norm_num)]
  rfl

end Verif.AM
