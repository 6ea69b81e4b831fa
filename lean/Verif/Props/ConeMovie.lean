import Verif.Lemmas.ConeMovie
import Verif.Props.HandlerRead
import Verif.Props.HandlerMake
import Mathlib.Algebra.Order.Field.Rat
import Mathlib.Data.Rat.Floor

/-!
# C114: the animation of a lightcone
-/

set_option linter.unusedSectionVars false

namespace Verif.Cone

open Verif.Handler (Name V State Err returnProperty)
open Verif.Handler.Spec (Reachable)
open Verif.LCH (Meta LCShape)
open Verif.Cone.Spec

variable {K : Type} [Field K] [LinearOrder K] [IsStrictOrderedRing K] [FloorRing K]

theorem column_ok {s : State K} {useAll inH : Bool} {p : Name} {l : List (V K)} (h : Column s useAll inH p l) :
    column s useAll inH p = .ok l := by
  unfold Column at h
  unfold column
  rw [h]

theorem positions_ok {s : State K} {useAll inH : Bool} {xs ys zs ra dec red : List (V K)}
    (h : Positions s useAll inH xs ys zs ra dec red) : positions s useAll inH = .ok [xs, ys, zs, ra, dec, red] := by
  unfold positions
  simp only [mapE, column_ok h.x, column_ok h.y, column_ok h.z, column_ok h.ra, column_ok h.dec, column_ok h.redshift]

/-- What is visible in a frame. -/
theorem visible_iff (lo hi : K) (zs sizes : List (V K)) (hl : sizes.length = zs.length)
    (hs : ∀ (j : ℕ) (v : V K), sizes[j]? = some v → ∃ x, v = some x ∧ 0 < x) (j : ℕ) :
    (∃ s, (sizesIn lo hi zs sizes)[j]? = some (some s) ∧ 0 < s) ↔ ∃ z, zs[j]? = some (some z) ∧ lo < z ∧ z < hi := by
  unfold sizesIn
  rw [List.getElem?_zipWith]
  rcases hz : zs[j]? with _ | _ | z
  · simp
  · have hj : j < zs.length := (List.getElem?_eq_some_iff.1 hz).1
    obtain ⟨v, hv⟩ : ∃ v, sizes[j]? = some v := ⟨_, List.getElem?_eq_getElem (by omega)⟩
    rw [hv]
    simp
  · have hj : j < zs.length := (List.getElem?_eq_some_iff.1 hz).1
    obtain ⟨v, hv⟩ : ∃ v, sizes[j]? = some v := ⟨_, List.getElem?_eq_getElem (by omega)⟩
    obtain ⟨x, rfl, hx⟩ := hs j v hv
    rw [hv]
    simp only
    by_cases hc : lo < z ∧ z < hi
    · rw [if_pos hc]
      constructor
      · intro _; exact ⟨z, rfl, hc⟩
      · intro _; exact ⟨x, rfl, hx⟩
    · rw [if_neg hc]
      constructor
      · rintro ⟨s, h1, h2⟩
        simp only [Option.some.injEq] at h1
        subst h1
        exact absurd h2 (lt_irrefl _)
      · rintro ⟨z', h1, h2⟩
        simp only [Option.some.injEq] at h1
        subst h1
        exact absurd h2 hc

variable (log10 : K → K) (pi : K) (d dt zAt : K → K)

/-- The animation shows the positions as returned by the handler; the slides are one after the other from the distance of
the minimum redshift (in units of Mpc/h) on, and a halo is visible in the frames whose slide its coordinate is strictly
within, with a size between 1 and 6. -/
theorem C114_movie (s : State K) (hr : Reachable s) (m : Meta K) (useAll : Bool) (inH : Option Bool)
    (cname sname : Name) (csc ssc : Scale) (angle : K) (ha : m.angle = some angle)
    (hd : d m.zmin * s.h < d m.zmax * s.h) (xs ys zs ra dec red c v : List (V K)) (cs ks : List K)
    (hp : Positions s useAll (inH.getD s.inH) xs ys zs ra dec red)
    (hc : Column s useAll (inH.getD s.inH) cname c) (huc : Usable log10 csc c cs)
    (hv : Column s useAll (inH.getD s.inH) sname v) (hus : Usable log10 ssc v ks) :
    ∃ mv n step, animate log10 pi d dt zAt s m useAll cname csc sname ssc inH = some (.ok mv) ∧
      Slides (d m.zmax * s.h - d m.zmin * s.h) n step ∧
      mv.xs = xs ∧ mv.ys = ys ∧ mv.zs = zs ∧ mv.ra = ra.map (fun v => v.map (fun x => x * 180 / pi * 60)) ∧
      mv.dec = dec.map (fun v => v.map (fun x => x * 180 / pi * 60)) ∧ mv.frames.length = n ∧
      (∃ lo hi, lo ∈ cs ∧ hi ∈ cs ∧ lo < hi ∧ (∀ k ∈ cs, lo ≤ k ∧ k ≤ hi) ∧
        mv.colors = cs.map (fun k => some ((k - lo) / (hi - lo)))) ∧
      ∀ (i : ℕ) (fr : Frame K), mv.frames[i]? = some fr →
        fr.box = (d m.zmin * s.h + step * i, d m.zmin * s.h + step * (i + 1)) ∧
        fr.title = zAt (d m.zmin * s.h + step * (i + 1 / 2)) ∧ fr.outline = dt fr.title * angle / 2 ∧
        fr.sizes.length = zs.length ∧
        ∀ j, (Visible fr j ↔ ∃ z, zs[j]? = some (some z) ∧ fr.box.1 < z ∧ z < fr.box.2) ∧
          ∀ x, fr.sizes[j]? = some x → x = some 0 ∨ ∃ y, x = some y ∧ 1 ≤ y ∧ y ≤ 6 := by
  obtain ⟨clo, chi, m1, m2, m3, m4, hcs⟩ := scaled_ok huc
  obtain ⟨slo, shi, -, -, s3, s4, hss⟩ := scaled_ok hus
  obtain ⟨n, step, hsl, hS⟩ := slides_ok (d m.zmax * s.h - d m.zmin * s.h) (by linarith)
  have hI := Handler.reachable_inv hr
  have lz : zs.length = v.length := by
    obtain ⟨-, e, arr, -, -, -, hlen, -⟩ := Handler.returnProperty_inv s hI _ useAll _ _ hp.z
    obtain ⟨-, e, arr, -, -, -, hlen', -⟩ := Handler.returnProperty_inv s hI _ useAll _ _ hv
    omega
  have lk : v.length = ks.length := hus.numbers
  refine ⟨{ zs := zs, xs := xs, ys := ys, ra := ra.map (fun v => v.map (fun x => x * 180 / pi * 60))
            dec := dec.map (fun v => v.map (fun x => x * 180 / pi * 60))
            colors := cs.map (fun k => some ((k - clo) / (chi - clo)))
            frames := (List.range n).map (frame dt zAt angle (d m.zmin * s.h) step zs
              (markers (ks.map (fun k => some ((k - slo) / (shi - slo)))))) }, n, step, ?_, hS, ?_⟩
  · unfold animate
    simp only [positions_ok hp, ha, column_ok hc, hcs, column_ok hv, hss, hsl]
    rfl
  · refine ⟨rfl, rfl, rfl, rfl, rfl, by simp, ⟨clo, chi, m1, m2, m3, m4, rfl⟩, ?_⟩
    intro i fr hfr
    simp only [List.getElem?_map, Option.map_eq_some_iff] at hfr
    obtain ⟨i', hi', rfl⟩ := hfr
    have hi : i < n := by
      have := (List.getElem?_eq_some_iff.1 hi').1
      simpa using this
    rw [List.getElem?_range hi] at hi'
    simp only [Option.some.injEq] at hi'
    subst hi'
    have hmk : ∀ (j : ℕ) (x : V K), (markers (ks.map (fun k => some ((k - slo) / (shi - slo)))))[j]? = some x →
        ∃ y, x = some y ∧ 1 ≤ y ∧ y ≤ 6 := by
      intro j x hx
      unfold markers at hx
      simp only [List.map_map, List.getElem?_map, Option.map_eq_some_iff, Function.comp, Option.map_some] at hx
      obtain ⟨k, hk, rfl⟩ := hx
      obtain ⟨a1, a2⟩ := s4 k (List.mem_of_getElem? hk)
      have hpos : 0 < shi - slo := by linarith
      have b1 : 0 ≤ (k - slo) / (shi - slo) := div_nonneg (by linarith) hpos.le
      have b2 : (k - slo) / (shi - slo) ≤ 1 := by rw [div_le_one hpos]; linarith
      exact ⟨_, rfl, by linarith, by linarith⟩
    have hlen : (markers (ks.map (fun k => some ((k - slo) / (shi - slo))))).length = zs.length := by
      simp [markers]; omega
    refine ⟨rfl, rfl, rfl, ?_, ?_⟩
    · simp only [frame, sizesIn, List.length_zipWith, hlen, Nat.min_self]
    · intro j
      refine ⟨visible_iff _ _ zs _ hlen (fun j x hx => ?_) j, ?_⟩
      · obtain ⟨y, h1, h2, -⟩ := hmk j x hx
        exact ⟨y, h1, by linarith⟩
      · intro x hx
        simp only [frame, sizesIn, List.getElem?_zipWith] at hx
        rcases hz : zs[j]? with _ | z
        · rw [hz] at hx
          cases hx
        · rw [hz] at hx
          rcases hm : (markers (ks.map (fun k => some ((k - slo) / (shi - slo)))))[j]? with _ | w
          · rw [hm] at hx; cases hx
          · rw [hm] at hx
            simp only [Option.some.injEq] at hx
            obtain ⟨y, rfl, y1, y2⟩ := hmk j w hm
            rcases z with _ | z
            · exact .inl hx.symm
            · simp only at hx
              split at hx
              · exact .inr ⟨y, hx.symm, y1, y2⟩
              · exact .inl hx.symm

/-- The slides do not overlap, so that no halo is visible in two frames; one that is nowhere at the end of a slide is
visible in exactly one frame. -/
theorem C114_once_partial (lo0 len : K) (n step : ℕ) (hS : Slides len n step) (z : K) :
    (∀ i i' : ℕ, lo0 + step * i < z → z < lo0 + step * (i + 1) → lo0 + step * i' < z → z < lo0 + step * (i' + 1) →
      i = i') ∧
    (lo0 < z → z < lo0 + len → (∀ i : ℕ, z ≠ lo0 + step * i) →
      ∃ i < n, lo0 + step * i < z ∧ z < lo0 + step * ((i : K) + 1)) := by
  have hn : (0 : K) < n := by exact_mod_cast hS.pos
  constructor
  · intro i i' h1 h2 h3 h4
    have hstep : (0 : K) < step := by
      by_contra hc
      have : (step : K) = 0 := le_antisymm (not_lt.1 hc) (Nat.cast_nonneg _)
      rw [this] at h1 h2
      linarith
    have e1 : (i : K) < i' + 1 := by
      by_contra hc
      have := mul_le_mul_of_nonneg_left (not_lt.1 hc) hstep.le
      linarith
    have e2 : (i' : K) < i + 1 := by
      by_contra hc
      have := mul_le_mul_of_nonneg_left (not_lt.1 hc) hstep.le
      linarith
    have f1 : i < i' + 1 := by exact_mod_cast e1
    have f2 : i' < i + 1 := by exact_mod_cast e2
    omega
  · intro h1 h2 hne
    have hstep : (0 : K) < step := by
      by_contra hc
      have : (step : K) = 0 := le_antisymm (not_lt.1 hc) (Nat.cast_nonneg _)
      have h3 := hS.cover
      rw [this] at h3
      linarith
    have hq : 0 < (z - lo0) / step := div_pos (by linarith) hstep
    have hf : 0 ≤ ⌊(z - lo0) / step⌋ := Int.floor_nonneg.2 hq.le
    obtain ⟨i, hi⟩ : ∃ i : ℕ, ⌊(z - lo0) / step⌋ = i := ⟨_, (Int.toNat_of_nonneg hf).symm⟩
    have a1 := Int.floor_le ((z - lo0) / step)
    have a2 := Int.lt_floor_add_one ((z - lo0) / step)
    rw [hi] at a1 a2
    simp only [Int.cast_natCast] at a1 a2
    rw [le_div_iff₀ hstep] at a1
    rw [div_lt_iff₀ hstep] at a2
    have hlt : lo0 + step * i < z := by
      rcases lt_or_eq_of_le (show lo0 + step * i ≤ z by linarith) with h | h
      · exact h
      · exact absurd h.symm (hne i)
    refine ⟨i, ?_, hlt, by linarith⟩
    by_contra hc
    have : (n : K) ≤ i := by exact_mod_cast not_lt.1 hc
    have := mul_le_mul_of_nonneg_left this hstep.le
    have := hS.cover
    linarith

/-- A halo at the end of a slide is visible in no frame. -/
theorem C114_end_of_slide_lost (lo0 : K) (step k i : ℕ) :
    ¬ (lo0 + step * i < lo0 + step * k ∧ lo0 + step * k < lo0 + step * ((i : K) + 1)) := by
  rintro ⟨h1, h2⟩
  rw [add_lt_add_iff_left] at h1 h2
  have e1 : step * i < step * k := by exact_mod_cast h1
  have e2 : step * k < step * (i + 1) := by exact_mod_cast h2
  have f1 := Nat.lt_of_mul_lt_mul_left e1
  have f2 := Nat.lt_of_mul_lt_mul_left e2
  omega

/-- No slide is wider than 50 (so they are at most 50 wide and the last one begins inside the cone). -/
theorem C114_slide_width (len : K) (n step : ℕ) (hS : Slides len n step) :
    step ≤ 50 ∧ (step : K) * ((n : K) - 1) < len := by
  have hn : (0 : K) < n := by exact_mod_cast hS.pos
  have h : step ≤ 50 := by
    by_contra hc
    have h51 : (51 : K) ≤ step := by exact_mod_cast not_le.1 hc
    have h1 := hS.tight
    have h2 := hS.enough
    have : (n : K) * 50 ≤ n * ((step : K) - 1) := mul_le_mul_of_nonneg_left (by linarith) hn.le
    linarith
  refine ⟨h, ?_⟩
  have hn1 : (0 : K) ≤ (n : K) - 1 := by
    have : (1 : K) ≤ n := by exact_mod_cast hS.pos
    linarith
  have h50 : (step : K) ≤ 50 := by exact_mod_cast h
  have := mul_le_mul_of_nonneg_right h50 hn1
  have := hS.fewest
  linarith

/-- Without units of h (the default) the positions are `1/h` times larger than the ends of the slides: a halo is visible
in a frame if it is between `h` times the ends of the slide, and never if it is farther than `h` times the end of the
last slide. -/
theorem C114_default_units_wrong (s : State K) (hr : Reachable s) (hh : 0 < s.h) (m : Meta K) (useAll : Bool)
    (cname sname : Name) (csc ssc : Scale) (angle : K) (ha : m.angle = some angle)
    (hd : d m.zmin * s.h < d m.zmax * s.h) (xs ys zs ra dec red c v : List (V K)) (cs ks : List K)
    (hp : Positions s useAll false xs ys zs ra dec red) (hc : Column s useAll false cname c)
    (huc : Usable log10 csc c cs) (hv : Column s useAll false sname v) (hus : Usable log10 ssc v ks)
    (zh : List (V K)) (hz : Column s useAll true "pos_z" zh) (he : s.hdep.get? "pos_z" = some (-1)) :
    ∃ mv n step, animate log10 pi d dt zAt s m useAll cname csc sname ssc (some false) = some (.ok mv) ∧
      Slides (d m.zmax * s.h - d m.zmin * s.h) n step ∧ mv.frames.length = n ∧
      ∀ fr ∈ mv.frames,
        (∀ j, Visible fr j ↔ ∃ z, zh[j]? = some (some z) ∧ fr.box.1 * s.h < z ∧ z < fr.box.2 * s.h) ∧
        ∀ (j : ℕ) (z : K), zh[j]? = some (some z) → (d m.zmin * s.h + step * n) * s.h ≤ z → ¬ Visible fr j := by
  obtain ⟨mv, n, step, e, hS, -, -, -, -, -, hl, -, hfr⟩ := C114_movie log10 pi d dt zAt s hr m useAll (some false) cname
    sname csc ssc angle ha hd xs ys zs ra dec red c v cs ks hp hc huc hv hus
  have hmap : zs = zh.map (fun v => v.map (fun x => x * s.h ^ (-1 : ℤ))) := by
    obtain ⟨e', vp, h1, h2, h3⟩ := Handler.C09_units s hr "pos_z" useAll (by decide) zh hz
    rw [he] at h1
    cases h1
    have := hp.z
    unfold Column at this
    rw [this] at h2
    simp only [Except.ok.injEq, Option.some.injEq] at h2
    rw [h2, h3]
  have vis : ∀ fr ∈ mv.frames, ∀ j, Visible fr j ↔
      ∃ z, zh[j]? = some (some z) ∧ fr.box.1 * s.h < z ∧ z < fr.box.2 * s.h := by
    intro fr hmem j
    obtain ⟨i, hi⟩ := List.getElem?_of_mem hmem
    obtain ⟨-, -, -, -, h5⟩ := hfr i fr hi
    rw [(h5 j).1, hmap]
    simp only [List.getElem?_map, Option.map_eq_some_iff]
    constructor
    · rintro ⟨z, ⟨a, h1, x, rfl, rfl⟩, h3, h4⟩
      refine ⟨x, h1, ?_, ?_⟩
      · rwa [zpow_neg_one, ← div_eq_mul_inv, lt_div_iff₀ hh] at h3
      · rwa [zpow_neg_one, ← div_eq_mul_inv, div_lt_iff₀ hh] at h4
    · rintro ⟨z, h1, h3, h4⟩
      refine ⟨z * s.h ^ (-1 : ℤ), ⟨some z, h1, z, rfl, rfl⟩, ?_, ?_⟩
      · rwa [zpow_neg_one, ← div_eq_mul_inv, lt_div_iff₀ hh]
      · rwa [zpow_neg_one, ← div_eq_mul_inv, div_lt_iff₀ hh]
  refine ⟨mv, n, step, e, hS, hl, fun fr hmem => ⟨vis fr hmem, ?_⟩⟩
  intro j z hj hge hv'
  obtain ⟨z', h1, -, h3⟩ := (vis fr hmem j).1 hv'
  rw [hj] at h1
  simp only [Option.some.injEq] at h1
  subst h1
  obtain ⟨i, hi⟩ := List.getElem?_of_mem hmem
  obtain ⟨hbox, -⟩ := hfr i fr hi
  have hin : i < n := by rw [← hl]; exact (List.getElem?_eq_some_iff.1 hi).1
  rw [hbox] at h3
  simp only at h3
  have h4 : ((i : K) + 1) ≤ n := by exact_mod_cast hin
  have h5 : (step : K) * ((i : K) + 1) ≤ step * n := mul_le_mul_of_nonneg_left h4 (Nat.cast_nonneg _)
  have h6 : (d m.zmin * s.h + step * ((i : K) + 1)) * s.h ≤ (d m.zmin * s.h + step * n) * s.h :=
    mul_le_mul_of_nonneg_right (by linarith) hh.le
  linarith

/-- The redshifts in the titles are those at which the distance in Mpc has the value that the middle of the slide has in
Mpc/h: they are too low. -/
theorem C114_titles_wrong (hd : StrictMono d) (h x : K) (hh : 0 < h) (hh1 : h < 1) (hx : 0 < x) (hz : d (zAt x) = x)
    (true' : K) (ht : d true' * h = x) : zAt x < true' := by
  rw [← hd.lt_iff_lt, hz]
  have hpos : 0 < d true' := by
    by_contra hc
    have := mul_nonpos_of_nonpos_of_nonneg (not_lt.1 hc) hh.le
    linarith
  nlinarith

theorem numbers_some (ws : List (Option (V K))) (ks : List K) (h : numbers ws = some ks) :
    ws = ks.map (fun k => some (some k)) := by
  induction ws generalizing ks with
  | nil => simp [numbers] at h; simp [← h]
  | cons w ws ih =>
    match w, h with
    | some (some x), h =>
      simp only [numbers, Option.map_eq_some_iff] at h
      obtain ⟨ks', h1, rfl⟩ := h
      simp [← ih ks' h1]
    | some none, h => simp [numbers] at h
    | none, h => simp [numbers] at h

/-- Values that give sizes: if one is not a number (or not positive, on a logarithmic scale), or if all are equal, all
sizes are NaN. -/
theorem scaled_nan (sc : Scale) (vs : List (V K))
    (h : none ∈ vs ∨ (sc = .log ∧ ∃ y, some y ∈ vs ∧ y ≤ 0) ∨ ∀ a ∈ vs, ∀ b ∈ vs, a = b) (l : List (V K))
    (hl : scaled log10 sc vs = .ok l) : ∀ x ∈ l, x = none := by
  have key : ∀ f : V K → Option (V K), f none = some none →
      ((∃ y, some y ∈ vs ∧ ∀ k : K, f (some y) ≠ some (some k)) ∨ none ∈ vs ∨ ∀ a ∈ vs, ∀ b ∈ vs, a = b) →
      ∀ v vs', vs = v :: vs' → ∀ l', (match numbers (vs.map f) with
        | some (k :: ks) =>
          if largest k ks - least k ks = 0 then (.ok (vs.map (fun _ => none)) : Except Err (List (V K)))
          else .ok ((k :: ks).map (fun x => some ((x - least k ks) / (largest k ks - least k ks))))
        | _ => .ok (vs.map (fun _ => none))) = .ok l' → ∀ x ∈ l', x = none := by
    intro f hf hcase v vs' hvs l' hl'
    have hnone : ∀ x ∈ vs.map (fun _ => (none : V K)), x = none := by
      intro x hx
      simp only [List.mem_map] at hx
      obtain ⟨_, _, rfl⟩ := hx
      rfl
    rcases hn : numbers (vs.map f) with _ | _ | ⟨k, ks⟩
    · rw [hn] at hl'
      simp only [Except.ok.injEq] at hl'
      subst hl'
      exact hnone
    · rw [hn] at hl'
      simp only [Except.ok.injEq] at hl'
      subst hl'
      exact hnone
    · rw [hn] at hl'
      have hm := numbers_some _ _ hn
      have hmem : ∀ a ∈ vs, ∃ q ∈ k :: ks, f a = some (some q) := by
        intro a ha
        have : f a ∈ (k :: ks).map (fun k => some (some k)) := by rw [← hm]; exact List.mem_map_of_mem ha
        obtain ⟨q, h1, h2⟩ := List.mem_map.1 this
        exact ⟨q, h1, h2.symm⟩
      have hmem' : ∀ q ∈ k :: ks, ∃ a ∈ vs, f a = some (some q) := by
        intro q hq
        have : some (some q) ∈ vs.map f := by rw [hm]; exact List.mem_map_of_mem hq
        obtain ⟨a, h1, h2⟩ := List.mem_map.1 this
        exact ⟨a, h1, h2⟩
      have heq : largest k ks - least k ks = 0 := by
        rcases hcase with ⟨y, hy, hne⟩ | hno | hall
        · obtain ⟨q, -, hq⟩ := hmem _ hy
          exact absurd hq (hne q)
        · obtain ⟨q, -, hq⟩ := hmem _ hno
          rw [hf] at hq
          cases hq
        · obtain ⟨a, a1, a2⟩ := hmem' _ (largest_mem k ks)
          obtain ⟨b, b1, b2⟩ := hmem' _ (least_mem k ks)
          rw [hall a a1 b b1, b2] at a2
          simp only [Option.some.injEq] at a2
          rw [a2, sub_self]
      simp only [heq, if_true, Except.ok.injEq] at hl'
      subst hl'
      exact hnone
  rcases hvs : vs with _ | ⟨v, vs'⟩
  · rw [hvs] at hl
    cases sc <;> simp [scaled] at hl
  · cases sc with
    | other => simp [scaled] at hl
    | linear =>
      refine key some rfl ?_ v vs' hvs l ?_
      · rcases h with h | ⟨h, -⟩ | h
        · exact .inr (.inl h)
        · cases h
        · exact .inr (.inr h)
      · rw [hvs] at hl ⊢
        exact hl
    | log =>
      refine key (Plot.logOf log10) rfl ?_ v vs' hvs l ?_
      · rcases h with h | ⟨-, y, h1, h2⟩ | h
        · exact .inr (.inl h)
        · refine .inl ⟨y, h1, ?_⟩
          intro k
          unfold Plot.logOf
          simp only
          by_cases h0 : y = 0
          · rw [if_pos h0]; exact fun e => by cases e
          · rw [if_neg h0, if_pos (lt_of_le_of_ne h2 h0)]
            exact fun e => by cases e
        · exact .inr (.inr h)
      · rw [hvs] at hl ⊢
        exact hl

/-- If a single value of the property that determines the sizes is not a number (not positive on the logarithmic scale,
the default), or if all values are equal, as for a single halo, nothing is visible in any frame. -/
theorem C114_nothing_visible (s : State K) (m : Meta K) (useAll : Bool) (inH : Option Bool) (cname sname : Name)
    (csc ssc : Scale) (mv : Movie K)
    (hmv : animate log10 pi d dt zAt s m useAll cname csc sname ssc inH = some (.ok mv)) (v : List (V K))
    (hv : Column s useAll (inH.getD s.inH) sname v)
    (h : none ∈ v ∨ (ssc = .log ∧ ∃ y, some y ∈ v ∧ y ≤ 0) ∨ ∀ a ∈ v, ∀ b ∈ v, a = b) :
    ∀ fr ∈ mv.frames, ∀ j, ¬ Visible fr j := by
  unfold animate at hmv
  simp only [column_ok hv] at hmv
  split at hmv
  · cases hmv
  · rename_i cols _
    split at hmv
    · cases hmv
    · split at hmv
      · cases hmv
      · split at hmv
        · cases hmv
        · split at hmv
          · cases hmv
          · rename_i sz hsz
            split at hmv
            · cases hmv
            · simp only [Option.some.injEq, Except.ok.injEq] at hmv
              subst hmv
              have hn := scaled_nan log10 ssc v h sz hsz
              intro fr hfr j
              simp only [List.mem_map] at hfr
              obtain ⟨i, -, rfl⟩ := hfr
              rintro ⟨q, h1, h2⟩
              simp only [frame, sizesIn, List.getElem?_zipWith] at h1
              rcases hz : (cols.getD 2 [])[j]? with _ | z
              · rw [hz] at h1; cases h1
              · rw [hz] at h1
                rcases hm : (markers sz)[j]? with _ | w
                · rw [hm] at h1; cases h1
                · rw [hm] at h1
                  have hw : w = none := by
                    unfold markers at hm
                    simp only [List.getElem?_map, Option.map_eq_some_iff] at hm
                    obtain ⟨a, h3, rfl⟩ := hm
                    rw [hn a (List.mem_of_getElem? h3)]
                    rfl
                  subst hw
                  simp only [Option.some.injEq] at h1
                  rcases z with _ | z
                  · simp only [Option.some.injEq] at h1
                    subst h1
                    exact absurd h2 (lt_irrefl _)
                  · simp only at h1
                    split at h1
                    · cases h1
                    · simp only [Option.some.injEq] at h1
                      subst h1
                      exact absurd h2 (lt_irrefl _)

/-- Light spheres have no opening angle and cannot be animated. -/
theorem C114_sphere_fails (s : State K) (m : Meta K) (useAll : Bool) (inH : Option Bool) (cname sname : Name)
    (csc ssc : Scale) (ha : m.angle = none) :
    ∃ e, animate log10 pi d dt zAt s m useAll cname csc sname ssc inH = some (.error e) := by
  unfold animate
  simp only [ha]
  split
  · exact ⟨_, rfl⟩
  · exact ⟨_, rfl⟩

/-- What is refused: scales other than the two, a property that cannot be returned, and a selection without halos. -/
theorem C114_refused (s : State K) (m : Meta K) (useAll : Bool) (inH : Option Bool) (cname sname : Name)
    (csc ssc : Scale) (h : csc = .other ∨ ssc = .other ∨
      ∃ p ∈ ["pos_x", "pos_y", "pos_z", "ra", "dec", "redshift", cname, sname],
        (∀ l, returnProperty s p useAll (some (inH.getD s.inH)) ≠ .ok (some l)) ∨
        returnProperty s p useAll (some (inH.getD s.inH)) = .ok (some []) ∧ (p = cname ∨ p = sname)) :
    ∃ e, animate log10 pi d dt zAt s m useAll cname csc sname ssc inH = some (.error e) := by
  have hother : ∀ vs, ∃ e, scaled log10 Scale.other vs = .error e := fun vs => ⟨_, rfl⟩
  have hempty : ∀ sc, ∃ e, scaled log10 sc ([] : List (V K)) = .error e := by
    intro sc
    cases sc <;> exact ⟨_, rfl⟩
  have hcol : ∀ p l, column s useAll (inH.getD s.inH) p = .ok l → returnProperty s p useAll (some (inH.getD s.inH)) = .ok (some l) := by
    intro p l hl
    unfold column at hl
    split at hl
    · cases hl
    · cases hl
    · rename_i heq
      cases hl
      exact heq
  unfold animate
  simp only
  rcases hp : positions s useAll (inH.getD s.inH) with e | cols
  · exact ⟨e, rfl⟩
  rcases m.angle with _ | angle
  · exact ⟨_, rfl⟩
  simp only
  rcases hc : column s useAll (inH.getD s.inH) cname with e | c
  · exact ⟨e, rfl⟩
  simp only
  rcases hcs : scaled log10 csc c with e | colors
  · exact ⟨e, rfl⟩
  simp only
  rcases hz : column s useAll (inH.getD s.inH) sname with e | z
  · exact ⟨e, rfl⟩
  simp only
  rcases hzs : scaled log10 ssc z with e | sz
  · exact ⟨e, rfl⟩
  exfalso
  rcases h with rfl | rfl | ⟨p, hpm, h⟩
  · obtain ⟨e, he⟩ := hother c
    rw [he] at hcs
    cases hcs
  · obtain ⟨e, he⟩ := hother z
    rw [he] at hzs
    cases hzs
  · have hret : ∃ l, column s useAll (inH.getD s.inH) p = .ok l := by
      have e : ["pos_x", "pos_y", "pos_z", "ra", "dec", "redshift", cname, sname] =
          ["pos_x", "pos_y", "pos_z", "ra", "dec", "redshift"] ++ [cname, sname] := rfl
      rw [e, List.mem_append] at hpm
      rcases hpm with hpm | hpm
      · obtain ⟨y, -, hy⟩ := mapE_mem' hp _ hpm; exact ⟨y, hy⟩
      · simp only [List.mem_cons, List.not_mem_nil, or_false] at hpm
        rcases hpm with rfl | rfl
        · exact ⟨c, hc⟩
        · exact ⟨z, hz⟩
    obtain ⟨l, hl⟩ := hret
    rcases h with h | ⟨h, rfl | rfl⟩
    · exact h l (hcol p l hl)
    · have := hcol _ _ hc
      rw [h] at this
      cases this
      obtain ⟨e, he⟩ := hempty csc
      rw [he] at hcs
      cases hcs
    · have := hcol _ _ hz
      rw [h] at this
      cases this
      obtain ⟨e, he⟩ := hempty ssc
      rw [he] at hzs
      cases hzs

/-- The whole property: with the default arguments every halo between the limits is visible in one of the frames. -/
def C114_full : Prop :=
  ∀ (log10 : ℚ → ℚ) (pi : ℚ) (d dt zAt : ℚ → ℚ) (s : State ℚ) (m : Meta ℚ) (angle : ℚ) (mv : Movie ℚ) (zh : List (V ℚ)),
    Reachable s → StrictMono d → (∀ x, d (zAt x) = x) → m.angle = some angle → m.zmin < m.zmax → 0 < s.h →
    s.hdep.get? "pos_z" = some (-1) → Column s false true "pos_z" zh →
    animate log10 pi d dt zAt s m false "mass" .log "mass" .log none = some (.ok mv) →
    ∀ (j : ℕ) (z : ℚ), zh[j]? = some (some z) → d m.zmin * s.h < z → z < d m.zmax * s.h →
      ∃ fr ∈ mv.frames, Visible fr j

/-- A lightcone with four halos, h = 1/2, the lines of sight 100 Mpc/h long. -/
def demoFile : PyDict Name (Handler.Dataset ℚ) :=
  [("mass", ⟨[some 4, some 3, some 2, some 1], some "Msun/h", some (-1), false⟩),
   ("pos_x", ⟨[some 0, some 1, some 2, some 3], some "Mpc/h", some (-1), false⟩),
   ("pos_y", ⟨[some 0, some 1, some 2, some 3], some "Mpc/h", some (-1), false⟩),
   ("pos_z", ⟨[some 10, some 20, some 50, some 90], some "Mpc/h", some (-1), false⟩),
   ("ra", ⟨[some 0, some 0, some 0, some 0], some "rad", some 0, false⟩),
   ("dec", ⟨[some 0, some 0, some 0, some 0], some "rad", some 0, false⟩),
   ("redshift", ⟨[some (1/10), some (1/5), some (1/2), some (9/10)], some "None", some 0, false⟩)]

theorem demoFile_wf : Handler.Spec.WF demoFile 4 where
  nodup := by decide
  mass := ⟨_, rfl, rfl⟩
  lengths := by
    intro p d hd hp
    simp only [demoFile, PyDict.get?_cons, PyDict.get?_nil] at hd
    split_ifs at hd <;> cases hd <;> rfl
  units := by
    intro p d hd hp
    simp only [demoFile, List.mem_cons, Prod.mk.injEq, List.not_mem_nil, or_false] at hd
    rcases hd with ⟨-, rfl⟩ | ⟨-, rfl⟩ | ⟨-, rfl⟩ | ⟨-, rfl⟩ | ⟨-, rfl⟩ | ⟨-, rfl⟩ | ⟨-, rfl⟩ <;> rfl
  hdep := by
    intro p d hd hp
    simp only [demoFile, List.mem_cons, Prod.mk.injEq, List.not_mem_nil, or_false] at hd
    rcases hd with ⟨-, rfl⟩ | ⟨-, rfl⟩ | ⟨-, rfl⟩ | ⟨-, rfl⟩ | ⟨-, rfl⟩ | ⟨-, rfl⟩ | ⟨-, rfl⟩ <;> rfl

/-- The handler of this lightcone. -/
def demo0 : State ℚ where
  file := demoFile
  h := 1/2
  all := ["mass", "pos_x", "pos_y", "pos_z", "ra", "dec", "redshift"]
  units := [("mass", "Msun/h"), ("pos_x", "Mpc/h"), ("pos_y", "Mpc/h"), ("pos_z", "Mpc/h"), ("ra", "rad"),
    ("dec", "rad"), ("redshift", "None")]
  hdep := [("mass", -1), ("pos_x", -1), ("pos_y", -1), ("pos_z", -1), ("ra", 0), ("dec", 0), ("redshift", 0)]
  saved := ["mass", "pos_x", "pos_y", "pos_z", "ra", "dec", "redshift"]
  nAll := 4
  loaded := []
  generated := []
  active := [0, 1, 2, 3]
  nActive := 4
  inH := false
  extra := [("h", 1/2)]

theorem demo0_init : Handler.init demoFile (1/2) false = .ok demo0 := rfl

theorem demo0_reachable : Reachable demo0 :=
  ⟨demoFile, 4, 1/2, false, demo0, demo0.extra, [], demoFile_wf, demo0_init, rfl⟩

/-- Its metadata. -/
def demoMeta : Meta ℚ := ⟨.box, 0, 1, some (1/10), some 1, 1/2, false⟩

/-- The animation of the demonstration: distances of 200 Mpc for each unit of redshift. -/
def demoMovie (inH : Option Bool) : Option (Except Err (Movie ℚ)) :=
  animate id 3 (fun z => 200 * z) (fun z => 200 * z) (fun x => x / 200) demo0 demoMeta false "mass" .log "mass" .log inH

/-- What is in the frames of the demonstration. -/
def demoFrames {α : Type} (inH : Option Bool) (f : Frame ℚ → α) : Option (Option (List α)) :=
  (demoMovie inH).map (fun r => r.toOption.map (fun mv => mv.frames.map f))

/-- In units with h the second slide shows the last halo; the third one, between the slides, is in no frame; the titles are
too low by a factor of two. -/
example : demoFrames (some true) (fun fr => fr.box) = some (some [(0, 50), (50, 100)]) ∧
    demoFrames (some true) (fun fr => fr.sizes) =
      some (some [[some 6, some (13/3), some 0, some 0], [some 0, some 0, some 0, some 1]]) ∧
    demoFrames (some true) (fun fr => fr.title) = some (some [1/8, 3/8]) := by
  refine ⟨?_, ?_, ?_⟩ <;> decide +kernel

/-- By default the last two halos are never shown. -/
theorem demo_default : demoFrames none (fun fr => fr.sizes) =
    some (some [[some 6, some (13/3), some 0, some 0], [some 0, some 0, some 0, some 0]]) := by decide +kernel

theorem C114_full_false : ¬ C114_full := by
  intro h
  obtain ⟨mv, hmv, hs⟩ : ∃ mv, demoMovie none = some (.ok mv) ∧
      mv.frames.map (fun fr => fr.sizes) = [[some 6, some (13/3), some 0, some 0], [some 0, some 0, some 0, some 0]] := by
    have hd := demo_default
    unfold demoFrames at hd
    rcases hm : demoMovie none with _ | e | mv
    · rw [hm] at hd; cases hd
    · rw [hm] at hd; cases hd
    · rw [hm] at hd
      simp only [Option.map_some, Except.toOption, Option.some.injEq] at hd
      exact ⟨mv, rfl, hd⟩
  obtain ⟨fr, hfr, q, h1, h2⟩ := h id 3 (fun z => 200 * z) (fun z => 200 * z) (fun x => x / 200) demo0 demoMeta (1/10) mv
    [some 10, some 20, some 50, some 90] demo0_reachable
    (fun a b hab => mul_lt_mul_of_pos_left hab (by norm_num)) (fun x => by ring) rfl (by decide +kernel) (by decide +kernel)
    rfl (by unfold Column; decide +kernel) hmv 3 90 rfl (by decide +kernel) (by decide +kernel)
  have : fr.sizes ∈ mv.frames.map (fun fr => fr.sizes) := List.mem_map_of_mem hfr
  rw [hs] at this
  simp only [List.mem_cons, List.not_mem_nil, or_false] at this
  rcases this with e | e <;> rw [e] at h1 <;> simp at h1 <;> subst h1 <;> exact absurd h2 (lt_irrefl _)

end Verif.Cone
