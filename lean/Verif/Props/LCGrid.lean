import Verif.Props.HandlerGrid

/-!
# C100: gridded lightcones
-/

set_option linter.unusedSectionVars false

namespace Verif.HGrid

open Verif.Handler (Name V State returnProperty)
open Verif.Sim (Err)
open Verif.Map Verif.Map.Spec Spec

variable {K : Type} [Field K] [LinearOrder K] [IsStrictOrderedRing K] [FloorRing K]

theorem limit_ok (lo hi : K) (h : lo < hi) (l : List K) (hl : l = [lo, hi] ∨ l = [hi, lo]) :
    limit l = .ok ((lo + hi) / 2, hi - lo) := by
  rcases hl with rfl | rfl
  · simp [limit, h.le]
  · simp [limit, h.le, add_comm]

/-- The limits that are used. -/
theorem lcLimits_ok (m : Verif.LCH.Meta K) (freq : Option K) (ralim declim zlim : Option (NArr K))
    (a b c d e f : K) (h1 : Interval (raDefault m) ralim a b) (h2 : Interval (decDefault m) declim c d)
    (h3 : Interval (zDefault m freq) zlim e f) :
    ∃ lims, lcLimits m freq ralim declim zlim = .ok lims ∧
      mapE limit lims = .ok [((a + b) / 2, b - a), ((c + d) / 2, d - c), ((e + f) / 2, f - e)] := by
  obtain ⟨hab, h1⟩ := h1
  obtain ⟨hcd, h2⟩ := h2
  obtain ⟨hef, h3⟩ := h3
  have r1 : ∃ l, raLimits m ralim = .ok l ∧ (l = [a, b] ∨ l = [b, a]) := by
    unfold raLimits
    cases ralim with
    | some x => exact ⟨_, rfl, h1⟩
    | none =>
      simp only [raDefault] at h1
      rcases hm : m.angle with _ | q
      · rw [hm] at h1; simp at h1
      · rw [hm] at h1
        simp only [Option.map_some, Option.some.injEq, Prod.mk.injEq] at h1
        exact ⟨_, rfl, Or.inl (by rw [← h1.1, ← h1.2, neg_div])⟩
  have r2 : ∃ l, decLimits m declim = .ok l ∧ (l = [c, d] ∨ l = [d, c]) := by
    unfold decLimits
    cases declim with
    | some x => exact ⟨_, rfl, h2⟩
    | none =>
      simp only [decDefault] at h2
      rcases hm : m.angle with _ | q
      · rw [hm] at h2; simp at h2
      rcases hr : m.aspect with _ | r
      · rw [hm, hr] at h2; simp at h2
      rw [hm, hr] at h2
      simp only [Option.some.injEq, Prod.mk.injEq] at h2
      exact ⟨_, rfl, Or.inl (by rw [← h2.1, ← h2.2, neg_mul, neg_div])⟩
  have r3 : zLimits m freq zlim = [e, f] ∨ zLimits m freq zlim = [f, e] := by
    unfold zLimits
    cases zlim with
    | some x => exact h3
    | none =>
      left
      simp only [zDefault] at h3
      cases freq with
      | none =>
        simp only [Option.some.injEq, Prod.mk.injEq] at h3
        simp only [h3.1, h3.2]
      | some q =>
        simp only [Option.some.injEq, Prod.mk.injEq] at h3
        simp only [h3.1, h3.2]
  obtain ⟨l1, e1, q1⟩ := r1
  obtain ⟨l2, e2, q2⟩ := r2
  unfold lcLimits
  simp only [e1, e2]
  refine ⟨_, rfl, ?_⟩
  simp only [mapE, limit_ok a b hab l1 q1, limit_ok c d hcd l2 q2, limit_ok e f hef _ r3]

theorem columns_observed (freq : Option K) (objs : List (List K × List (V K)))
    (h : ∀ o ∈ objs, o.1.length = 3)
    (hz : freq ≠ none → ∀ o ∈ objs, ∀ z, o.1[2]? = some z → 1 + z ≠ 0) :
    lcColumns freq ((List.range 3).map (fun k => objs.map (fun o => o.1[k]?))) = (List.range 3).map (fun k => (objs.map (observed freq)).map (fun o => o.1[k]?)) := by
  have e : ∀ f : ℕ → List (V K), (List.range 3).map f = [f 0, f 1, f 2] := fun f => rfl
  rw [e, e]
  simp only [lcColumns]
  cases freq with
  | none => simp [toFreq, observed]
  | some f =>
    simp only [toFreq, observed, List.map_map]
    congr 1
    · apply List.map_congr_left
      intro o _
      show o.1[_]? = (o.1.modify 2 _)[_]?
      simp [List.getElem?_modify]
    congr 1
    · apply List.map_congr_left
      intro o _
      show o.1[_]? = (o.1.modify 2 _)[_]?
      simp [List.getElem?_modify]
    congr 1
    · apply List.map_congr_left
      intro o ho
      show (o.1[2]?).bind _ = (o.1.modify 2 _)[2]?
      simp only [List.getElem?_modify, if_true]
      rcases hq : o.1[2]? with _ | z
      · rfl
      · simp [if_neg (hz (by simp) o ho z hq)]

theorem observed_length (freq : Option K) (o : List K × List (V K)) :
    (observed freq o).1.length = o.1.length ∧ (observed freq o).2 = o.2 := by
  cases freq <;> simp [observed]

/-- **C100**: the grid of a lightcone has in each cell the sum of each property over the selected objects with
right ascension, declination and redshift (or observed frequency) in the cell, times the factor. -/
theorem C100_cells (s : State K) (m : Verif.LCH.Meta K) (names : List Name) (freq : Option K)
    (inH : Option Bool) (useAll : Bool) (objs : List (List K × List (V K)))
    (hcat : Catalogue s useAll inH ["ra", "dec", "redshift"] names objs) (hne : objs ≠ [])
    (hn : names ≠ []) (hz : freq ≠ none → ∀ o ∈ objs, ∀ z, o.1[2]? = some z → 1 + z ≠ 0)
    (res ralim declim zlim : Option (NArr K)) (norm : Option K) (a b c d e f : K)
    (h1 : Interval (raDefault m) ralim a b) (h2 : Interval (decDefault m) declim c d)
    (h3 : Interval (zDefault m freq) zlim e f)
    (hp : (pixels [b - a, d - c, f - e] res).length = 3)
    (hw : ∀ w ∈ pixels [b - a, d - c, f - e] res, 0 < w)
    (hmin : ∀ (i : ℕ) (l w : K), [b - a, d - c, f - e][i]? = some l →
      (pixels [b - a, d - c, f - e] res)[i]? = some w → (1 + 1 / 20) * w < l) :
    ∃ g, lcGrid s m names freq inH useAll res ralim declim zlim norm = some (.ok g) ∧
      Gridded g (objs.map (observed freq)) names.length [(a + b) / 2, (c + d) / 2, (e + f) / 2]
        [b - a, d - c, f - e] (pixels [b - a, d - c, f - e] res) (norm.getD 1) ∧
      g.nObj = (inGrid g (objs.map (observed freq))).length := by
  obtain ⟨lims, hl, hlim⟩ := lcLimits_ok m freq ralim declim zlim a b c d e f h1 h2 h3
  have hlen : ∀ o ∈ objs.map (observed freq), o.1.length = 3 ∧ o.2.length = names.length := by
    intro o ho
    obtain ⟨o', ho', rfl⟩ := List.mem_map.1 ho
    obtain ⟨q1, q2⟩ := observed_length freq o'
    exact ⟨by rw [q1]; exact hcat.coordinates o' ho', by rw [q2]; exact hcat.number o' ho'⟩
  obtain ⟨g, hg, -, -, q1, q2⟩ := finish_ok (objs.map (observed freq)) names.length
    (by rcases names with _ | ⟨a, l⟩ <;> simp at hn ⊢) hlen (by simpa using hne)
    [(a + b) / 2, (c + d) / 2, (e + f) / 2] [b - a, d - c, f - e]
    (intLimits [ralim, declim, zlim]) res (match norm with | none => .none | some x => .factor x) rfl rfl hp hw hmin
  refine ⟨g, ?_, ?_, q2⟩
  · unfold lcGrid
    simp only [readAll_ok s useAll inH _ _ objs hcat, hl, hlim]
    have hcol := columns_observed freq objs hcat.coordinates hz
    have h3 : ["ra", "dec", "redshift"].length = 3 := rfl
    rw [h3, hcol]
    have hr := rows_pos ["ra", "dec", "redshift"] (by simp) (objs.map (observed freq))
      (fun o ho => (hlen o ho).1)
    rw [h3] at hr
    rw [hr]
    have hv : (List.range names.length).map (fun k => objs.map (fun o => o.2.getD k none)) =
        (List.range names.length).map (fun k => (objs.map (observed freq)).map (fun o => o.2.getD k none)) := by
      apply List.map_congr_left
      intro k _
      rw [List.map_map]
      apply List.map_congr_left
      intro o _
      simp only [Function.comp, (observed_length freq o).2]
    rw [hv]
    simp only [List.map_cons, List.map_nil]
    rw [← hg]
    rfl
  · cases norm <;> exact q1

/-- **C100** with the default resolution: a hundred cells on each axis between the limits; an object is in the
grid exactly if its coordinates are between the limits, upper limits excluded. -/
theorem C100_default (s : State K) (m : Verif.LCH.Meta K) (names : List Name) (freq : Option K)
    (inH : Option Bool) (useAll : Bool) (objs : List (List K × List (V K)))
    (hcat : Catalogue s useAll inH ["ra", "dec", "redshift"] names objs) (hne : objs ≠ [])
    (hn : names ≠ []) (hz : freq ≠ none → ∀ o ∈ objs, ∀ z, o.1[2]? = some z → 1 + z ≠ 0)
    (ralim declim zlim : Option (NArr K)) (a b c d e f : K)
    (h1 : Interval (raDefault m) ralim a b) (h2 : Interval (decDefault m) declim c d)
    (h3 : Interval (zDefault m freq) zlim e f) :
    ∃ g t, lcGrid s m names freq inH useAll none ralim declim zlim = some (.ok g) ∧ g.grid = some t ∧
      g.nPix = [100, 100, 100] ∧
      g.axes = [edges 100 ((b - a) / 100) ((a + b) / 2), edges 100 ((d - c) / 100) ((c + d) / 2),
        edges 100 ((f - e) / 100) ((e + f) / 2)] ∧
      g.nObj = (objs.filter (fun o => decide (InRegion [(a, b), (c, d), (e, f)] (observed freq o).1))).length ∧
      (∀ i p, p < names.length → cell t i p =
        cellSum g.axes i ((objs.map (observed freq)).map (fun o => (o.1, valueOf p o)))) ∧
      ((∀ o ∈ objs, InRegion [(a, b), (c, d), (e, f)] (observed freq o).1) → ∀ p, p < names.length →
        total g t p = (objs.map (valueOf p)).sum) := by
  have ha : 0 < b - a := sub_pos.2 h1.1
  have hc : 0 < d - c := sub_pos.2 h2.1
  have he : 0 < f - e := sub_pos.2 h3.1
  have hpos : ∀ l ∈ [b - a, d - c, f - e], 0 < l := by simp [ha, hc, he, h1.1, h2.1, h3.1]
  obtain ⟨g, hg, hG, hN⟩ := C100_cells s m names freq inH useAll objs hcat hne hn hz none ralim declim zlim none
    a b c d e f h1 h2 h3 (by simp [pixels])
    (by
      intro w hw
      simp only [pixels] at hw
      obtain ⟨l, hl, rfl⟩ := List.mem_map.1 hw
      have := hpos l hl
      positivity)
    (by
      intro i l w q1 q2
      simp only [pixels, List.getElem?_map, q1, Option.map_some, Option.some.injEq] at q2
      have := hpos l (List.mem_of_getElem? q1)
      rw [← q2]
      linarith)
  obtain ⟨q1, q2, q3, q4⟩ := hundred g _ names.length _ _ _ _ _ _ _ ha hc he hG hN
  have e0 : ∀ x y : K, (x + y) / 2 - (y - x) / 2 = x := fun x y => by ring
  have e1 : ∀ x y : K, (x + y) / 2 + (y - x) / 2 = y := fun x y => by ring
  simp only [e0, e1] at q3 q4
  obtain ⟨t, ht, -, hcell⟩ := hG.cells
  have hid : ∀ v : WithTop K, v.map (fun x => (none : Option K).getD 1 * x) = v := by
    intro v; cases v <;> simp
  refine ⟨g, t, hg, ht, q1, q2, ?_, ?_, ?_⟩
  · rw [q4, List.filter_map, List.length_map]
    rfl
  · intro i p hp
    rw [hcell i p hp, hid]
  · intro hin p hp
    rw [gridded_total g _ _ _ _ _ _ hG t ht p hp (by
      intro o ho
      obtain ⟨o', ho', rfl⟩ := List.mem_map.1 ho
      exact (q3 _).2 (hin o' ho')), hid, List.map_map]
    congr 2
    funext o
    simp only [Function.comp, valueOf, (observed_length freq o).2]

/-- **C100**, part that holds: for a cone (rectangular, or with aspect ratio one) every object strictly inside
its limits is in the grid, with redshifts or with frequencies. -/
theorem C100_inside_partial (s : State K) (m : Verif.LCH.Meta K) (names : List Name) (freq : Option K)
    (inH : Option Bool) (useAll : Bool) (objs : List (List K × List (V K)))
    (hcat : Catalogue s useAll inH ["ra", "dec", "redshift"] names objs) (hne : objs ≠ [])
    (hn : names ≠ []) (a r : K) (ha : m.angle = some a) (hr : m.aspect = some r) (ha0 : 0 < a) (hr0 : 0 < r)
    (hz0 : -1 < m.zmin) (hz : m.zmin < m.zmax) (hf : ∀ f, freq = some f → 0 < f)
    (hin : ∀ o ∈ objs, ∃ x y z, o.1 = [x, y, z] ∧ |x| < a / 2 ∧ |y| < a * r / 2 ∧ m.zmin < z ∧ z < m.zmax) :
    ∃ g t, lcGrid s m names freq inH useAll = some (.ok g) ∧ g.grid = some t ∧ g.nObj = objs.length ∧
      ∀ p, p < names.length → total g t p = (objs.map (valueOf p)).sum := by
  have h1 : Interval (raDefault m) none (-(a / 2)) (a / 2) := by
    refine ⟨by linarith, by simp [raDefault, ha]⟩
  have hra : 0 < a * r := mul_pos ha0 hr0
  have h2 : Interval (decDefault m) none (-(a * r / 2)) (a * r / 2) := by
    refine ⟨by linarith, by simp [decDefault, ha, hr]⟩
  obtain ⟨e, f, h3, hreg⟩ : ∃ e f : K, Interval (zDefault m freq) none e f ∧
      ∀ o ∈ objs, InRegion [(-(a / 2), a / 2), (-(a * r / 2), a * r / 2), (e, f)] (observed freq o).1 := by
    cases hq : freq with
    | none =>
      refine ⟨m.zmin, m.zmax, ⟨hz, rfl⟩, ?_⟩
      intro o ho
      obtain ⟨x, y, z, h4, h5, h6, h7, h8⟩ := hin o ho
      rw [abs_lt] at h5 h6
      simp only [observed, h4, InRegion, List.forall₂_cons, List.forall₂_nil_left_iff, and_true]
      exact ⟨⟨h5.1.le, h5.2⟩, ⟨h6.1.le, h6.2⟩, h7.le, h8⟩
    | some q =>
      have hq0 := hf q hq
      have d1 : 0 < 1 + m.zmin := by linarith
      refine ⟨q / (1 + m.zmax), q / (1 + m.zmin), ⟨?_, rfl⟩, ?_⟩
      · exact div_lt_div_of_pos_left hq0 d1 (by linarith)
      · intro o ho
        obtain ⟨x, y, z, h4, h5, h6, h7, h8⟩ := hin o ho
        rw [abs_lt] at h5 h6
        simp only [observed, h4, InRegion, List.modify_succ_cons, List.modify_zero_cons, List.forall₂_cons,
          List.forall₂_nil_left_iff, and_true]
        exact ⟨⟨h5.1.le, h5.2⟩, ⟨h6.1.le, h6.2⟩, (div_lt_div_of_pos_left hq0 (by linarith) (by linarith)).le,
          div_lt_div_of_pos_left hq0 d1 (by linarith)⟩
  obtain ⟨g, t, q1, q2, -, -, q3, -, q4⟩ := C100_default s m names freq inH useAll objs hcat hne hn
    (by
      intro _ o ho z hz'
      obtain ⟨x, y, z', h4, h5, h6, h7, h8⟩ := hin o ho
      rw [h4] at hz'
      simp at hz'
      have : 0 < 1 + z := by rw [← hz']; linarith
      exact this.ne') none none none _ _ _ _ e f h1 h2 h3
  refine ⟨g, t, q1, q2, ?_, q4 hreg⟩
  rw [q3, List.filter_eq_self.2]
  intro o ho
  simpa using hreg o ho

/-- What is lost with default limits. -/
theorem lc_lost (s : State K) (m : Verif.LCH.Meta K) (names : List Name) (freq : Option K)
    (inH : Option Bool) (useAll : Bool) (objs : List (List K × List (V K)))
    (hcat : Catalogue s useAll inH ["ra", "dec", "redshift"] names objs)
    (hn : names ≠ []) (hz : freq ≠ none → ∀ o ∈ objs, ∀ z, o.1[2]? = some z → 1 + z ≠ 0)
    (a b c d e f : K) (h1 : Interval (raDefault m) none a b) (h2 : Interval (decDefault m) none c d)
    (h3 : Interval (zDefault m freq) none e f)
    (h : ∃ o ∈ objs, ∃ x y z, (observed freq o).1 = [x, y, z] ∧ (b ≤ x ∨ d ≤ y ∨ y < c ∨ f ≤ z)) :
    ∃ g, lcGrid s m names freq inH useAll = some (.ok g) ∧ g.nObj < objs.length := by
  obtain ⟨o, ho, x, y, z, hxyz, hor⟩ := h
  obtain ⟨g, t, q1, q2, -, -, q3, -⟩ := C100_default s m names freq inH useAll objs hcat
    (List.ne_nil_of_mem ho) hn hz none none none a b c d e f h1 h2 h3
  refine ⟨g, q1, ?_⟩
  rw [q3, List.length_filter_lt_length_iff_exists]
  refine ⟨o, ho, ?_⟩
  simp only [decide_eq_true_eq, hxyz, InRegion, List.forall₂_cons, List.forall₂_nil_left_iff, and_true]
  rintro ⟨⟨-, p1⟩, ⟨p2, p3⟩, -, p4⟩
  rcases hor with h | h | h | h
  · exact absurd p1 (not_lt.2 h)
  · exact absurd p3 (not_lt.2 h)
  · exact absurd p2 (not_le.2 h)
  · exact absurd p4 (not_lt.2 h)

/-- **C100**: objects at the maximum redshift are lost; with a frequency, the ones at the minimum redshift. -/
theorem C100_edge_lost (s : State K) (m : Verif.LCH.Meta K) (names : List Name) (freq : Option K)
    (inH : Option Bool) (useAll : Bool) (objs : List (List K × List (V K)))
    (hcat : Catalogue s useAll inH ["ra", "dec", "redshift"] names objs)
    (hn : names ≠ []) (a r : K) (ha : m.angle = some a) (hr : m.aspect = some r) (ha0 : 0 < a) (hr0 : 0 < r)
    (hz0 : -1 < m.zmin) (hz : m.zmin < m.zmax) (hf : ∀ f, freq = some f → 0 < f)
    (hob : ∀ o ∈ objs, ∀ z : K, o.1[2]? = some z → -1 < z)
    (h : ∃ o ∈ objs, o.1[2]? = some (if freq = none then m.zmax else m.zmin)) :
    ∃ g, lcGrid s m names freq inH useAll = some (.ok g) ∧ g.nObj < objs.length := by
  have hra : 0 < a * r := mul_pos ha0 hr0
  obtain ⟨o, ho, hoz⟩ := h
  have hl := hcat.coordinates o ho
  obtain ⟨x, y, z, hxyz⟩ : ∃ x y z, o.1 = [x, y, z] := by
    match hq : o.1, hl with
    | [x, y, z], _ => exact ⟨x, y, z, rfl⟩
  have hzz : z = if freq = none then m.zmax else m.zmin := by
    rw [hxyz] at hoz
    simpa using hoz
  have hne : freq ≠ none → ∀ o ∈ objs, ∀ z, o.1[2]? = some z → 1 + z ≠ 0 := by
    intro _ o ho z hz'
    have := hob o ho z hz'
    have h0 : 0 < 1 + z := by linarith
    exact h0.ne'
  have i1 : Interval (raDefault m) none (-(a / 2)) (a / 2) := ⟨by linarith, by simp [raDefault, ha]⟩
  have i2 : Interval (decDefault m) none (-(a * r / 2)) (a * r / 2) :=
    ⟨by linarith, by simp [decDefault, ha, hr]⟩
  cases hq : freq with
  | none =>
    subst hq
    exact lc_lost s m names none inH useAll objs hcat hn hne _ _ _ _ m.zmin m.zmax i1 i2 ⟨hz, rfl⟩
      ⟨o, ho, x, y, z, hxyz, Or.inr (Or.inr (Or.inr (by rw [hzz]; simp)))⟩
  | some q =>
    subst hq
    have hq0 := hf q rfl
    exact lc_lost s m names (some q) inH useAll objs hcat hn hne _ _ _ _ (q / (1 + m.zmax)) (q / (1 + m.zmin))
      i1 i2 ⟨div_lt_div_of_pos_left hq0 (by linarith) (by linarith), rfl⟩
      ⟨o, ho, x, y, q / (1 + z), by simp [observed, hxyz],
        Or.inr (Or.inr (Or.inr (by rw [hzz]; simp)))⟩

/-- **C100**: the objects of a round lightcone with an aspect ratio below one (which is stored, though it
plays no role for the shape) that lie further than the aspect ratio times half the opening angle from the
axis in declination are lost. -/
theorem C100_circle_lost (s : State K) (m : Verif.LCH.Meta K) (names : List Name)
    (inH : Option Bool) (useAll : Bool) (objs : List (List K × List (V K)))
    (hcat : Catalogue s useAll inH ["ra", "dec", "redshift"] names objs)
    (hn : names ≠ []) (a r : K) (ha : m.angle = some a) (hr : m.aspect = some r) (ha0 : 0 < a) (hr0 : 0 < r)
    (hz : m.zmin < m.zmax)
    (h : ∃ o ∈ objs, ∃ y, o.1[1]? = some y ∧ a * r / 2 < |y|) :
    ∃ g, lcGrid s m names none inH useAll = some (.ok g) ∧ g.nObj < objs.length := by
  have hra : 0 < a * r := mul_pos ha0 hr0
  obtain ⟨o, ho, y', hoy, hlt⟩ := h
  have hl := hcat.coordinates o ho
  obtain ⟨x, y, z, hxyz⟩ : ∃ x y z, o.1 = [x, y, z] := by
    match hq : o.1, hl with
    | [x, y, z], _ => exact ⟨x, y, z, rfl⟩
  have : y = y' := by rw [hxyz] at hoy; simpa using hoy
  subst this
  refine lc_lost s m names none inH useAll objs hcat hn (by simp) (-(a / 2)) (a / 2)
    (-(a * r / 2)) (a * r / 2) m.zmin m.zmax ⟨by linarith, by simp [raDefault, ha]⟩
    ⟨by linarith, by simp [decDefault, ha, hr]⟩ ⟨hz, rfl⟩
    ⟨o, ho, x, y, z, hxyz, ?_⟩
  rcases lt_abs.1 hlt with h | h
  · exact Or.inr (Or.inl h.le)
  · exact Or.inr (Or.inr (Or.inl (by linarith)))

/-- **C100**: light spheres cannot be gridded without limits in both angles. -/
theorem C100_sphere_fails (s : State K) (m : Verif.LCH.Meta K) (names : List Name) (freq : Option K)
    (inH : Option Bool) (useAll : Bool) (objs : List (List K × List (V K)))
    (hcat : Catalogue s useAll inH ["ra", "dec", "redshift"] names objs)
    (res ralim declim zlim : Option (NArr K)) (norm : Option K) (ha : m.angle = none)
    (h : ralim = none ∨ declim = none) :
    lcGrid s m names freq inH useAll res ralim declim zlim norm = some (.error .attributeError) := by
  unfold lcGrid
  simp only [readAll_ok s useAll inH _ _ objs hcat]
  have : lcLimits m freq ralim declim zlim = .error .attributeError := by
    unfold lcLimits raLimits decLimits
    cases ralim with
    | none => simp [ha]
    | some x =>
      rcases h with h | h
      · cases h
      · subst h
        simp [ha]
  rw [this]

/-- **C100**: nothing selected: refused. -/
theorem C100_empty_refused (s : State K) (m : Verif.LCH.Meta K) (names : List Name) (freq : Option K)
    (inH : Option Bool) (useAll : Bool)
    (hcat : Catalogue s useAll inH ["ra", "dec", "redshift"] names [])
    (res ralim declim zlim : Option (NArr K)) (norm : Option K) (g : Grid K (WithTop K)) :
    lcGrid s m names freq inH useAll res ralim declim zlim norm ≠ some (.ok g) := by
  unfold lcGrid
  simp only [readAll_ok s useAll inH _ _ [] hcat]
  rcases lcLimits m freq ralim declim zlim with e | lims
  · simp
  · simp only
    rcases mapE limit lims with e | cl
    · simp
    · simp only
      have hcol := columns_observed freq ([] : List (List K × List (V K))) (by simp) (by simp)
      have h3 : ["ra", "dec", "redshift"].length = 3 := rfl
      rw [h3, hcol]
      have hr := rows_pos ["ra", "dec", "redshift"] (by simp) (([] : List (List K × List (V K))).map (observed freq))
        (by simp)
      rw [h3] at hr
      rw [hr]
      simp [finish_empty]

/-- **C100** as documented: every object of the cone is in the grid by default. -/
def C100_full (K : Type) [Field K] [LinearOrder K] [FloorRing K] : Prop :=
  ∀ (s : State K) (m : Verif.LCH.Meta K) (names : List Name) (objs : List (List K × List (V K))) (a r : K),
    Verif.Handler.Spec.Reachable s → Catalogue s false none ["ra", "dec", "redshift"] names objs → objs ≠ [] →
    names ≠ [] → m.shape = .circle → m.angle = some a → m.aspect = some r → 0 < a → 0 < r → r ≤ 1 →
    (∀ o ∈ objs, ∃ x y z, o.1 = [x, y, z] ∧ x ^ 2 + y ^ 2 < (a / 2) ^ 2 ∧ m.zmin < z ∧ z < m.zmax) →
    ∃ g, lcGrid s m names = some (.ok g) ∧ g.nObj = objs.length

/-- A file of a lightcone with two objects. -/
def coneFile : PyDict Name (Verif.Handler.Dataset ℚ) :=
  [("mass", ⟨[some 1, some 2], some "Msun/h", some (-1), false⟩),
   ("ra", ⟨[some 0, some (1 / 20)], some "rad", some 0, false⟩),
   ("dec", ⟨[some (1 / 100), some (1 / 3)], some "rad", some 0, false⟩),
   ("redshift", ⟨[some (3 / 2), some (3 / 2)], some "none", some 0, false⟩)]

theorem coneFile_wf : Verif.Handler.Spec.WF coneFile 2 where
  nodup := by decide
  mass := ⟨_, rfl, rfl⟩
  lengths := by
    intro p d hd _
    simp only [coneFile, PyDict.get?_cons, PyDict.get?_nil] at hd
    split at hd
    · simp only [Option.some.injEq] at hd; subst hd; rfl
    split at hd
    · simp only [Option.some.injEq] at hd; subst hd; rfl
    split at hd
    · simp only [Option.some.injEq] at hd; subst hd; rfl
    split at hd
    · simp only [Option.some.injEq] at hd; subst hd; rfl
    · cases hd
  units := by
    intro p d hd _
    simp only [coneFile, List.mem_cons, Prod.mk.injEq, List.not_mem_nil, or_false] at hd
    rcases hd with ⟨_, rfl⟩ | ⟨_, rfl⟩ | ⟨_, rfl⟩ | ⟨_, rfl⟩ <;> rfl
  hdep := by
    intro p d hd _
    simp only [coneFile, List.mem_cons, Prod.mk.injEq, List.not_mem_nil, or_false] at hd
    rcases hd with ⟨_, rfl⟩ | ⟨_, rfl⟩ | ⟨_, rfl⟩ | ⟨_, rfl⟩ <;> rfl

def coneState : State ℚ where
  file := coneFile
  h := 1 / 2
  all := ["mass", "ra", "dec", "redshift"]
  units := [("mass", "Msun/h"), ("ra", "rad"), ("dec", "rad"), ("redshift", "none")]
  hdep := [("mass", -1), ("ra", 0), ("dec", 0), ("redshift", 0)]
  saved := ["mass", "ra", "dec", "redshift"]
  nAll := 2
  loaded := []
  generated := []
  active := [0, 1]
  nActive := 2
  inH := true
  extra := [("h", 1 / 2)]

theorem coneState_init : Verif.Handler.init coneFile (1 / 2) true = .ok coneState := rfl

theorem coneState_reachable : Verif.Handler.Spec.Reachable coneState :=
  ⟨coneFile, 2, 1 / 2, true, coneState, coneState.extra, [], coneFile_wf, coneState_init, rfl⟩

def coneObjs : List (List ℚ × List (V ℚ)) :=
  [([0, 1 / 100, 3 / 2], [some 1]), ([1 / 20, 1 / 3, 3 / 2], [some 2])]

theorem cone_catalogue : Catalogue coneState false none ["ra", "dec", "redshift"] ["mass"] coneObjs where
  positions := by
    intro k p hk
    match k, hk with
    | 0, h => simp at h; subst h; rfl
    | 1, h => simp at h; subst h; rfl
    | 2, h => simp at h; subst h; rfl
    | k + 3, h => simp at h
  values := by
    intro k p hk
    match k, hk with
    | 0, h => simp at h; subst h; rfl
    | k + 1, h => simp at h
  coordinates := by decide
  number := by decide

/-- A round lightcone from redshift 1 to 2 with opening angle 1 and aspect ratio `r`. -/
def coneMeta (r : ℚ) : Verif.LCH.Meta ℚ :=
  { shape := .circle, zmin := 1, zmax := 2, angle := some 1, aspect := some r, h := 1 / 2, inH := true }

theorem C100_full_false : ¬ C100_full ℚ := by
  intro h
  obtain ⟨g, h1, h2⟩ := h coneState (coneMeta (1 / 2)) ["mass"] coneObjs 1 (1 / 2) coneState_reachable
    cone_catalogue (by decide) (by decide) rfl rfl rfl (by norm_num) (by norm_num) (by norm_num) (by
      intro o ho
      simp only [coneObjs, List.mem_cons, List.not_mem_nil, or_false] at ho
      rcases ho with rfl | rfl
      · exact ⟨_, _, _, rfl, by norm_num, by norm_num [coneMeta], by norm_num [coneMeta]⟩
      · exact ⟨_, _, _, rfl, by norm_num, by norm_num [coneMeta], by norm_num [coneMeta]⟩)
  obtain ⟨g', h3, h4⟩ := C100_circle_lost coneState (coneMeta (1 / 2)) ["mass"] none false coneObjs cone_catalogue
    (by decide) 1 (1 / 2) rfl rfl (by norm_num) (by norm_num) (by norm_num [coneMeta])
    ⟨([1 / 20, 1 / 3, 3 / 2], [some 2]), by simp [coneObjs], 1 / 3, rfl, by norm_num [abs_of_pos]⟩
  rw [h1] at h3
  simp only [Option.some.injEq, Except.ok.injEq] at h3
  rw [h3] at h2
  omega

/-- With aspect ratio one both objects are in the grid, also on a frequency axis. -/
example : ∃ g t, lcGrid coneState (coneMeta 1) ["mass"] (some 115) = some (.ok g) ∧ g.grid = some t ∧
    g.nObj = 2 ∧ total g t 0 = ((3 : ℚ) : WithTop ℚ) := by
  obtain ⟨g, t, h1, h2, h3, h4⟩ := C100_inside_partial coneState (coneMeta 1) ["mass"] (some 115) none false
    coneObjs cone_catalogue (by decide) (by decide) 1 1 rfl rfl (by norm_num) (by norm_num)
    (by norm_num [coneMeta]) (by norm_num [coneMeta]) (by simp) (by
      intro o ho
      simp only [coneObjs, List.mem_cons, List.not_mem_nil, or_false] at ho
      rcases ho with rfl | rfl
      · exact ⟨_, _, _, rfl, by norm_num, by norm_num [abs_of_pos], by norm_num [coneMeta], by norm_num [coneMeta]⟩
      · exact ⟨_, _, _, rfl, by norm_num [abs_of_pos], by norm_num [abs_of_pos], by norm_num [coneMeta],
          by norm_num [coneMeta]⟩)
  refine ⟨g, t, h1, h2, h3, ?_⟩
  rw [h4 0 (by decide)]
  decide +kernel

end Verif.HGrid
