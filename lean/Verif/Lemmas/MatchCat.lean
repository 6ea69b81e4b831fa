import Verif.Lemmas.Match
import Verif.Spec.Match
import Mathlib.Data.Rat.Cast.Order

set_option linter.unusedSectionVars false

/-!
# Facts about accepted calls of `am_dfcat` and about quantiles
-/

namespace Verif.AM

open Verif.Sim (Err)

variable {K : Type} [Field K] [LinearOrder K] [IsStrictOrderedRing K]

/-! ## What is known of accepted calls -/

theorem checkMissing_ok (p : Params K) (h : checkMissing p = .ok ()) :
    0 ≤ p.low1 ∧ 0 ≤ p.high1 ∧ 0 ≤ p.low2 ∧ 0 ≤ p.high2 ∧ p.low1 + p.high1 ≤ 1 ∧ p.low2 + p.high2 ≤ 1 := by
  unfold checkMissing at h
  split at h
  · cases h
  · split at h
    · cases h
    · split at h
      · cases h
      · rename_i h1 h2 h3
        simp only [List.any_cons, List.any_nil, Bool.or_false, Bool.or_eq_true, decide_eq_true_eq,
          not_or, not_lt] at h2
        simp only [not_or, gt_iff_lt, not_lt] at h3
        exact ⟨h2.1, h2.2.2.1, h2.2.1, h2.2.2.2, h3.1, h3.2⟩

theorem filler_ok (l : WithTop K) (e : Extrap K) (v : V K) (h : filler l e = .ok v) : v = Spec.fill l e := by
  cases e <;> simp only [filler, Except.ok.injEq, reduceCtorEq] at h <;> rw [← h] <;> rfl

theorem fillers_ok (p : Params K) (a b c d : WithTop K) (f : Fillers K) (h : fillers p a b c d = .ok f) :
    f.f0 = Spec.fill a p.exLow1 ∧ f.f1 = Spec.fill b p.exHigh1 ∧ f.f2 = Spec.fill c p.exLow2 ∧
      f.f3 = Spec.fill d p.exHigh2 := by
  unfold fillers at h
  rcases h0 : filler a p.exLow1 with e | f0
  · rw [h0] at h; cases h
  rcases h1 : filler b p.exHigh1 with e | f1
  · rw [h0, h1] at h; cases h
  rcases h2 : filler c p.exLow2 with e | f2
  · rw [h0, h1, h2] at h; cases h
  rcases h3 : filler d p.exHigh2 with e | f3
  · rw [h0, h1, h2, h3] at h; cases h
  rw [h0, h1, h2, h3] at h
  simp only [Except.ok.injEq] at h
  subst h
  exact ⟨filler_ok _ _ _ h0, filler_ok _ _ _ h1, filler_ok _ _ _ h2, filler_ok _ _ _ h3⟩

/-- Everything an accepted call of `am_dfcat` gives. -/
structure DfcatOk (cat : List K) (d : Dist K) (mn : K) (mx : WithTop K) (p : Params K) (m : Matching K)
    (q : K × K) (qs : List (K × K)) (top : K) : Prop where
  check : checkMissing p = .ok ()
  pts : points cat p.low1 p.high1 = q :: qs
  first : ∀ a ∈ cat, q.1 ≤ a
  firstMem : q.1 ∈ cat
  last : ∀ a ∈ cat, a ≤ top
  lastMem : top ∈ cat
  lastPt : ∃ l, (q :: qs).getLast? = some l ∧ l.1 = top
  p2 : ∀ x, m.p2 x = ppfScalar d p.low2 p.high2 mn mx (Spec.fill (mn : WithTop K) p.exLow2)
    (Spec.fill mx p.exHigh2) (turn p.reverse (cdfCat (q, qs) x))
  p2s : ∀ xs, m.p2s xs = xs.map (fun x => ppfElem d p.low2 p.high2 mn mx
    (Spec.fill (mn : WithTop K) p.exLow2) (Spec.fill mx p.exHigh2) (turn p.reverse (cdfCat (q, qs) x)))
  p1 : ∀ y, m.p1 y = (cdfScalar d p.low2 p.high2 mn mx y).bind (fun c =>
    ppfCat (q.swap, qs.map Prod.swap) (Spec.fill (q.1 : WithTop K) p.exLow1)
      (Spec.fill (top : WithTop K) p.exHigh1) (turn p.reverse c))
  p1s : ∀ ys, m.p1s ys = ys.map (fun y => (cdfElem d p.low2 p.high2 mn mx y).bind (fun c =>
    ppfCat (q.swap, qs.map Prod.swap) (Spec.fill (q.1 : WithTop K) p.exLow1)
      (Spec.fill (top : WithTop K) p.exHigh1) (turn p.reverse c)))

theorem amDfcat_ok (cat : List K) (d : Dist K) (mn : K) (mx : WithTop K) (p : Params K) (m : Matching K)
    (h : amDfcat cat d mn mx p = .ok m) :
    ∃ q qs top, DfcatOk cat d mn mx p m q qs top := by
  unfold amDfcat at h
  rcases hc : checkMissing p with e | u
  · rw [hc] at h; cases h
  rw [hc] at h
  simp only at h
  rcases hs : cat.insertionSort (· ≤ ·) with _ | ⟨lo, los⟩
  · rw [hs] at h; cases h
  rcases hp : points cat p.low1 p.high1 with _ | ⟨q, qs⟩
  · rw [hs, hp] at h; cases h
  rw [hs, hp] at h
  simp only at h
  obtain ⟨top, htop⟩ : ∃ top, top = (lo :: los).getLast (by simp) := ⟨_, rfl⟩
  rw [← htop] at h
  rcases hf : fillers p (lo : WithTop K) (top : WithTop K) (mn : WithTop K) mx with e | f
  · rw [hf] at h; cases h
  rw [hf] at h
  simp only [Except.ok.injEq] at h
  obtain ⟨e0, e1, e2, e3⟩ := fillers_ok _ _ _ _ _ _ hf
  have hfst := points_fst cat p.low1 p.high1
  rw [hs, hp, List.map_cons] at hfst
  obtain ⟨hq, hqs⟩ := List.cons.inj hfst
  have hsorted : (lo :: los).Pairwise (· ≤ ·) := by rw [← hs]; exact List.pairwise_insertionSort _ _
  have hmem : ∀ a, a ∈ cat ↔ a ∈ lo :: los := by
    intro a; rw [← hs]; exact (List.mem_insertionSort (· ≤ ·)).symm
  have hlast? : (lo :: los).getLast? = some top := by rw [htop, List.getLast?_eq_some_getLast]
  refine ⟨q, qs, top, ⟨hc, hp, ?_, ?_, ?_, ?_, ?_, ?_, ?_, ?_, ?_⟩⟩
  · intro a ha
    rw [hq]
    rcases List.mem_cons.1 ((hmem a).1 ha) with rfl | h'
    · exact le_rfl
    · exact (List.pairwise_cons.1 hsorted).1 a h'
  · rw [hmem, hq]; simp
  · intro a ha
    obtain ⟨l, hl⟩ := List.getLast?_eq_some_iff.1 hlast?
    have ha' := (hmem a).1 ha
    rw [hl] at ha' hsorted
    rcases List.mem_append.1 ha' with h' | h'
    · exact (List.pairwise_append.1 hsorted).2.2 a h' top (by simp)
    · simp only [List.mem_singleton] at h'; rw [h']
  · rw [hmem]; exact List.mem_of_getLast? hlast?
  · have hl2 : ((q :: qs).map Prod.fst).getLast? = some top := by
      rw [List.map_cons, hfst, hlast?]
    rw [List.getLast?_map] at hl2
    rcases hg : (q :: qs).getLast? with _ | l
    · rw [hg] at hl2; cases hl2
    · rw [hg] at hl2
      exact ⟨l, rfl, by simpa using hl2⟩
  · intro x; rw [← h, ← e2, ← e3]
  · intro x; rw [← h, ← e2, ← e3]
  · intro x; rw [← h, hq, ← e0, ← e1]
  · intro x; rw [← h, hq, ← e0, ← e1]

/-! ## The cumulative fraction of the catalogue -/

section cat
variable {cat : List K} {d : Dist K} {mn : K} {mx : WithTop K} {p : Params K} {m : Matching K}
  {q : K × K} {qs : List (K × K)} {top : K}

theorem incr_of (H : DfcatOk cat d mn mx p m q qs top) : Incr (q :: qs) := by
  obtain ⟨a, b, c, e, f, g⟩ := checkMissing_ok p H.check
  rw [← H.pts]; exact points_incr _ _ _ (by linarith)

theorem snd_of (H : DfcatOk cat d mn mx p m q qs top) : ∀ r ∈ q :: qs, p.low1 ≤ r.2 ∧ r.2 ≤ 1 - p.high1 := by
  obtain ⟨a, b, c, e, f, g⟩ := checkMissing_ok p H.check
  rw [← H.pts]; exact points_bounds _ _ _ (by linarith)

theorem fst_of (H : DfcatOk cat d mn mx p m q qs top) (x : K) : x ∈ (q :: qs).map Prod.fst ↔ x ∈ cat := by
  rw [← H.pts, points_fst]; exact List.mem_insertionSort (· ≤ ·)

theorem cdfCat_mono (H : DfcatOk cat d mn mx p m q qs top) (x y : K) (h : x ≤ y) :
    cdfCat (q, qs) x ≤ cdfCat (q, qs) y := by
  obtain ⟨a, b, c, e, f, g⟩ := checkMissing_ok p H.check
  exact interp_mono id (· ≤ ·) 1 (fun a b h => h) (fun a b c => le_trans) le_rfl 0 le_rfl zero_le_one
    x y h q qs (incr_of H) (fun r hr => (((snd_of H) r hr).2).trans (by linarith))
    (a.trans ((snd_of H) q (by simp)).1)

theorem cdfCat_below (H : DfcatOk cat d mn mx p m q qs top) (x : K) (h : ∀ a ∈ cat, x < a) :
    cdfCat (q, qs) x = 0 := by
  unfold cdfCat interp
  rw [if_pos (h _ H.firstMem)]

theorem interpFrom_beyond {α : Type} (emb : K → α) (right : α) (x : K) (p : K × K) (rest : List (K × K))
    (h : ∀ r ∈ p :: rest, r.1 < x) : interpFrom emb right x p rest = right := by
  induction rest generalizing p with
  | nil => rw [interpFrom, if_pos (h p (by simp))]
  | cons q rest ih =>
    rw [interpFrom, if_pos (h q (by simp)).le]
    exact ih q (fun r hr => h r (by simp [List.mem_cons.1 hr]))

theorem cdfCat_above (H : DfcatOk cat d mn mx p m q qs top) (x : K) (h : ∀ a ∈ cat, a < x) :
    cdfCat (q, qs) x = 1 := by
  unfold cdfCat interp
  rw [if_neg (not_lt.2 (h _ H.firstMem).le)]
  refine interpFrom_beyond id 1 x q qs (fun r hr => h _ ?_)
  rw [← fst_of H]
  exact List.mem_map.2 ⟨r, hr, rfl⟩

theorem cdfCat_at (H : DfcatOk cat d mn mx p m q qs top) (x : K) (h : x ∈ cat) (hn : 2 ≤ cat.length) :
    cdfCat (q, qs) x = Spec.fraction cat p.low1 p.high1 x := by
  unfold cdfCat interp
  rw [if_neg (not_lt.2 (H.first x h))]
  obtain ⟨v, h1, h2⟩ := interpFrom_at (id : K → K) 1 x q qs (incr_of H) ((fst_of H x).2 h)
  rw [h2]
  have hc : (q :: qs).countP (fun r => decide (r.1 ≤ x)) = cat.countP (fun a => decide (a ≤ x)) := by
    have e : (q :: qs).countP (fun r => decide (r.1 ≤ x))
        = ((q :: qs).map Prod.fst).countP (fun a => decide (a ≤ x)) := by
      rw [List.countP_map]; rfl
    rw [e, ← H.pts, points_fst]
    exact (List.perm_insertionSort (· ≤ ·) cat).countP_eq _
  rw [hc] at h1
  have hpos : 0 < cat.countP (fun a => decide (a ≤ x)) :=
    List.countP_pos_iff.2 ⟨x, h, by simp⟩
  have hle : cat.countP (fun a => decide (a ≤ x)) ≤ cat.length := List.countP_le_length
  have h3 : ((q :: qs).map Prod.snd)[cat.countP (fun a => decide (a ≤ x)) - 1]? = some v.2 := by
    rw [List.getElem?_map, h1]; rfl
  rw [← H.pts, points_snd, linspace_get _ _ _ _ (by omega)] at h3
  simp only [Option.some.injEq] at h3
  rw [id, ← h3, Spec.fraction, Nat.cast_sub hpos]
  have : (1 - p.high1 - p.low1) = (1 - p.high1) - p.low1 := rfl
  rw [Nat.cast_one]
  ring

/-- Between the lightest and the heaviest halo the fraction lies between the missing fractions. -/
theorem cdfCat_within (H : DfcatOk cat d mn mx p m q qs top) (x : K) (h1 : q.1 ≤ x) (h2 : x ≤ top) :
    p.low1 ≤ cdfCat (q, qs) x ∧ cdfCat (q, qs) x ≤ 1 - p.high1 := by
  obtain ⟨a, b, c, e, f, g⟩ := checkMissing_ok p H.check
  have key : ∀ y ∈ cat, p.low1 ≤ cdfCat (q, qs) y ∧ cdfCat (q, qs) y ≤ 1 - p.high1 := by
    intro y hy
    unfold cdfCat interp
    rw [if_neg (not_lt.2 (H.first y hy))]
    obtain ⟨v, e1, e2⟩ := interpFrom_at (id : K → K) 1 y q qs (incr_of H) ((fst_of H y).2 hy)
    rw [e2]
    exact snd_of H v (List.mem_of_getElem? e1)
  exact ⟨(key _ H.firstMem).1.trans (cdfCat_mono H _ _ h1),
    (cdfCat_mono H _ _ h2).trans (key _ H.lastMem).2⟩

theorem cdfCat_unit (H : DfcatOk cat d mn mx p m q qs top) (x : K) :
    0 ≤ cdfCat (q, qs) x ∧ cdfCat (q, qs) x ≤ 1 := by
  obtain ⟨a, b, c, e, f, g⟩ := checkMissing_ok p H.check
  by_cases h1 : q.1 ≤ x
  · by_cases h2 : x ≤ top
    · have := cdfCat_within H x h1 h2
      exact ⟨a.trans this.1, this.2.trans (by linarith)⟩
    · rw [cdfCat_above H x (fun r hr => lt_of_le_of_lt (H.last r hr) (not_le.1 h2))]
      exact ⟨zero_le_one, le_rfl⟩
  · rw [cdfCat_below H x (fun r hr => lt_of_lt_of_le (not_le.1 h1) (H.first r hr))]
    exact ⟨le_rfl, zero_le_one⟩

/-- Strictly between the lightest and the heaviest halo the fraction is strictly between. -/
theorem cdfCat_strict (H : DfcatOk cat d mn mx p m q qs top) (hroom : p.low1 + p.high1 < 1) (x : K)
    (h1 : q.1 < x) (h2 : x < top) : p.low1 < cdfCat (q, qs) x ∧ cdfCat (q, qs) x < 1 - p.high1 := by
  obtain ⟨a, b, c, e, f, g⟩ := checkMissing_ok p H.check
  have hs : Strict2 (q :: qs) := by rw [← H.pts]; exact points_strict2 _ _ _ (by linarith)
  obtain ⟨l, hl, rfl⟩ := H.lastPt
  have hlm := List.mem_of_getLast? hl
  have hlt := interpFrom_lt 1 x q qs (incr_of H) hs l hl h1.le h2
  have hlast := (snd_of H l hlm).2
  have hq2 : q.2 < 1 := by
    have hne : l ≠ q := by rintro rfl; exact absurd (h1.trans h2) (lt_irrefl _)
    rcases List.mem_cons.1 hlm with h | h
    · exact absurd h hne
    · have := (List.pairwise_cons.1 hs).1 l h
      linarith
  have hgt := interpFrom_gt 1 x q qs (incr_of H) hs (fun r hr => ((snd_of H) r hr).2.trans (by linarith)) hq2 h1
  unfold cdfCat interp
  rw [if_neg (not_lt.2 h1.le)]
  exact ⟨lt_of_le_of_lt (snd_of H q (by simp)).1 hgt, lt_of_lt_of_le hlt hlast⟩

end cat

/-! ## Quantiles of the distribution -/

theorem turn_unit (r : Bool) (c : K) (h : 0 ≤ c ∧ c ≤ 1) : 0 ≤ turn r c ∧ turn r c ≤ 1 := by
  cases r
  · exact h
  · simp only [turn, if_true]; exact ⟨by linarith [h.2], by linarith [h.1]⟩

theorem Le.trans {a b c : V K} (h1 : Spec.Le a b) (h2 : Spec.Le b c) : Spec.Le a c := by
  obtain ⟨x, y, rfl, rfl, hxy⟩ := h1
  obtain ⟨y', z, h, rfl, hyz⟩ := h2
  cases h
  exact ⟨x, z, rfl, rfl, hxy.trans hyz⟩

theorem proper_lt {d : Dist K} {mn : K} {mx : WithTop K} (hd : Spec.Proper d mn mx) : (mn : WithTop K) < mx := by
  by_contra h
  exact absurd (hd.mono _ _ (not_lt.1 h)) (not_le.2 hd.spread)

/-- The point at which the quantile is taken lies between the limits, and never decreases. -/
theorem cstar_between {d : Dist K} {mn : K} {mx : WithTop K} (hd : Spec.Proper d mn mx) (low high a : K)
    (hroom : low + high < 1) (h1 : low ≤ a) (h2 : a ≤ 1 - high) :
    ∃ c, cstar d low high mn mx a = some c ∧ d.cdf mn ≤ c ∧ c ≤ d.cdf mx ∧
      c = (a - low) / (1 - high - low) * (d.cdf mx - d.cdf mn) + d.cdf mn := by
  have hw : 0 < 1 - high - low := by linarith
  have hF := hd.spread
  have h0 : 0 ≤ (a - low) / (1 - high - low) := div_nonneg (by linarith) hw.le
  have h1' : (a - low) / (1 - high - low) ≤ 1 := by rw [div_le_one hw]; linarith
  refine ⟨_, by rw [cstar, if_neg hw.ne'], ?_, ?_, rfl⟩
  · nlinarith
  · nlinarith

theorem ppfScalar_mono {d : Dist K} {mn : K} {mx : WithTop K} (hd : Spec.Proper d mn mx) (low high : K)
    (hroom : low + high < 1) (fLow fHigh : V K)
    (hlow : fLow = some (mn : WithTop K) ∨ low = 0) (hhigh : fHigh = some mx ∨ high = 0)
    (a b : K) (h0 : 0 ≤ a) (hab : a ≤ b) (h1 : b ≤ 1) :
    Spec.Le (ppfScalar d low high mn mx fLow fHigh a) (ppfScalar d low high mn mx fLow fHigh b) := by
  have hmm := (proper_lt hd).le
  unfold ppfScalar
  by_cases ha : a < low
  · rw [if_pos ha]
    have hl : fLow = some (mn : WithTop K) := by
      rcases hlow with h | h
      · exact h
      · rw [h] at ha; exact absurd h0 (not_le.2 ha)
    rw [hl]
    by_cases hb : b < low
    · rw [if_pos hb]; exact ⟨_, _, rfl, rfl, le_rfl⟩
    · rw [if_neg hb]
      by_cases hb' : b > 1 - high
      · rw [if_pos hb']
        have hh : fHigh = some mx := by
          rcases hhigh with h | h
          · exact h
          · rw [h] at hb'; exact absurd h1 (not_le.2 (by linarith))
        rw [hh]
        exact ⟨_, _, rfl, rfl, hmm⟩
      · rw [if_neg hb']
        obtain ⟨c, e, c1, c2, -⟩ := cstar_between hd low high b hroom (not_lt.1 hb) (not_lt.1 hb')
        rw [e]
        exact (hd.inside c c1 c2).1
  · have hb : ¬ b < low := not_lt.2 ((not_lt.1 ha).trans hab)
    rw [if_neg ha, if_neg hb]
    by_cases ha' : a > 1 - high
    · rw [if_pos ha', if_pos (lt_of_lt_of_le ha' hab)]
      have hh : fHigh = some mx := by
        rcases hhigh with h | h
        · exact h
        · rw [h] at ha'; exact absurd (hab.trans h1) (not_le.2 (by linarith))
      rw [hh]
      exact ⟨_, _, rfl, rfl, le_rfl⟩
    · rw [if_neg ha']
      obtain ⟨c, e, c1, c2, ec⟩ := cstar_between hd low high a hroom (not_lt.1 ha) (not_lt.1 ha')
      rw [e]
      by_cases hb' : b > 1 - high
      · rw [if_pos hb']
        have hh : fHigh = some mx := by
          rcases hhigh with h | h
          · exact h
          · rw [h] at hb'; exact absurd h1 (not_le.2 (by linarith))
        rw [hh]
        exact (hd.inside c c1 c2).2
      · rw [if_neg hb']
        obtain ⟨c', e', c1', c2', ec'⟩ := cstar_between hd low high b hroom (not_lt.1 hb) (not_lt.1 hb')
        rw [e']
        refine hd.quantiles c c' c1 ?_ c2'
        have hw : 0 < 1 - high - low := by linarith
        have : (a - low) / (1 - high - low) ≤ (b - low) / (1 - high - low) :=
          div_le_div_of_nonneg_right (by linarith) hw.le
        have hF := hd.spread
        rw [ec, ec']
        have := mul_le_mul_of_nonneg_right this (show 0 ≤ d.cdf mx - d.cdf mn by linarith)
        linarith

theorem ppfScalar_inside {d : Dist K} {mn : K} {mx : WithTop K} (low high : K) (fLow fHigh : V K)
    (hroom : low + high < 1) (a : K) (h1 : low ≤ a) (h2 : a ≤ 1 - high) :
    ppfScalar d low high mn mx fLow fHigh a = Spec.valueAt d low high mn mx a := by
  have hw : 1 - high - low ≠ 0 := by intro h; linarith
  unfold ppfScalar
  rw [if_neg (not_lt.2 h1), if_neg (not_lt.2 h2), cstar, if_neg hw]
  unfold quantile Spec.valueAt
  have e : 1 - high - low = 1 - low - high := by ring
  rw [e, add_comm]

/-- Elements of arrays: the same unless the fraction is exactly on one of the edges. -/
theorem ppfElem_eq {d : Dist K} {mn : K} {mx : WithTop K} (low high : K) (fLow fHigh : V K)
    (hroom : low + high ≤ 1) (a : K) (h1 : a ≠ low) (h2 : a ≠ 1 - high) :
    ppfElem d low high mn mx fLow fHigh a = ppfScalar d low high mn mx fLow fHigh a := by
  unfold ppfElem ppfScalar
  simp only
  by_cases ha : a < low
  · have : ¬ a > 1 - high := not_lt.2 (by linarith)
    rw [if_pos ha, if_pos ha, if_neg this]
  · rw [if_neg ha, if_neg ha]
    by_cases hb : a > 1 - high
    · rw [if_pos hb, if_pos hb]
    · rw [if_neg hb, if_neg hb, if_pos ⟨lt_of_le_of_ne (not_lt.1 ha) (Ne.symm h1),
        lt_of_le_of_ne (not_lt.1 hb) h2⟩]

/-- On the edges the element stays zero. -/
theorem ppfElem_edge {d : Dist K} {mn : K} {mx : WithTop K} (low high : K) (fLow fHigh : V K)
    (hroom : low + high ≤ 1) (a : K) (h : a = low ∨ a = 1 - high) :
    ppfElem d low high mn mx fLow fHigh a = some ((0 : K) : WithTop K) := by
  unfold ppfElem
  simp only
  have h1 : ¬ a < low := by rcases h with h | h <;> rw [h] <;> exact not_lt.2 (by linarith)
  have h2 : ¬ a > 1 - high := by rcases h with h | h <;> rw [h] <;> exact not_lt.2 (by linarith)
  have h3 : ¬ (a > low ∧ a < 1 - high) := by
    rintro ⟨u, v⟩
    rcases h with h | h
    · rw [h] at u; exact lt_irrefl _ u
    · rw [h] at v; exact lt_irrefl _ v
  rw [if_neg h2, if_neg h1, if_neg h3]

end Verif.AM
