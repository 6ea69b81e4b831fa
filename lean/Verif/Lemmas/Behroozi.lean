import Mathlib.Tactic.Ring
import Mathlib.Tactic.Linarith
import Mathlib.Tactic.FieldSimp
import Mathlib.Tactic.NormNum
import Mathlib.Tactic.Positivity
import Verif.Spec.Behroozi

set_option linter.unusedSectionVars false

/-!
# Lemmas about the tables of star formation rates
-/

namespace Verif

theorem mapE_map {ε α β : Type _} (f : α → Except ε β) (g : α → β) (xs : List α) (h : ∀ x ∈ xs, f x = .ok (g x)) :
    mapE f xs = .ok (xs.map g) := by
  induction xs with
  | nil => rfl
  | cons x xs ih =>
    simp only [mapE, h x (List.mem_cons_self ..), ih (fun y hy => h y (List.mem_cons_of_mem _ hy)), List.map_cons]

theorem mapE_fail {ε α β : Type _} (f : α → Except ε β) (e : ε) (xs : List α) (x : α) (hx : x ∈ xs) (h : f x = .error e)
    (hall : ∀ y ∈ xs, ∀ e', f y = .error e' → e' = e) : mapE f xs = .error e := by
  induction xs with
  | nil => cases hx
  | cons y ys ih =>
    rcases hy : f y with e' | v
    · simp only [mapE, hy, hall y (List.mem_cons_self ..) e' hy]
    · have hne : x ∈ ys := by
        rcases List.mem_cons.1 hx with rfl | hx
        · rw [h] at hy; cases hy
        · exact hx
      simp only [mapE, hy, ih hne (fun y hy => hall y (List.mem_cons_of_mem _ hy))]

end Verif

namespace Verif.Beh

open Spec

variable {K : Type} [Field K] [LinearOrder K] [IsStrictOrderedRing K]

theorem mem_unique (l : List K) (x : K) : x ∈ unique l ↔ x ∈ l := by
  unfold unique
  rw [List.mem_insertionSort, List.mem_dedup]

theorem unique_sorted (l : List K) : (unique l).Pairwise (· < ·) := by
  unfold unique
  have h1 : (l.dedup.insertionSort (· ≤ ·)).Pairwise (· ≤ ·) := List.pairwise_insertionSort _ _
  have h2 : (l.dedup.insertionSort (· ≤ ·)).Nodup := (List.perm_insertionSort _ _).nodup_iff.2 (List.nodup_dedup l)
  exact (h1.and h2).imp (fun h => lt_of_le_of_ne h.1 h.2)

/-! ## Interpolation -/

theorem lerp_node (xs : List K) (f : K → K) (hs : xs.Pairwise (· < ·)) (x : K) (hx : x ∈ xs) :
    lerp xs (xs.map f) x = f x := by
  induction xs with
  | nil => cases hx
  | cons x0 xs ih =>
    cases xs with
    | nil => simp only [List.mem_singleton] at hx; subst hx; rfl
    | cons x1 xs =>
      simp only [List.map_cons, lerp]
      have h01 : x0 < x1 := (List.pairwise_cons.1 hs).1 x1 (List.mem_cons_self ..)
      have hs' := (List.pairwise_cons.1 hs).2
      rcases List.mem_cons.1 hx with rfl | hx
      · rw [if_pos le_rfl]
      · have hlt : x0 < x := (List.pairwise_cons.1 hs).1 x hx
        rw [if_neg (not_le.2 hlt)]
        rcases List.mem_cons.1 hx with rfl | hx2
        · rw [if_pos le_rfl, div_self (sub_pos.2 h01).ne']; ring
        · have hlt1 : x1 < x := (List.pairwise_cons.1 hs').1 x hx2
          rw [if_neg (not_le.2 hlt1)]
          exact ih hs' hx

theorem lerp_between (xs : List K) (f : K → K) (hs : xs.Pairwise (· < ·)) (a b x : K) (hn : Neighbours xs a b)
    (hax : a ≤ x) (hxb : x ≤ b) : lerp xs (xs.map f) x = f a + (x - a) / (b - a) * (f b - f a) := by
  obtain ⟨ha, hb, hab, hbet⟩ := hn
  rcases hax.eq_or_lt with rfl | hax
  · rw [lerp_node xs f hs a ha]; simp
  rcases hxb.eq_or_lt with rfl | hxb
  · rw [lerp_node xs f hs x hb, div_self (sub_pos.2 hab).ne']; ring
  induction xs with
  | nil => cases ha
  | cons x0 xs ih =>
    cases xs with
    | nil =>
      simp only [List.mem_singleton] at ha hb; subst ha; subst hb; exact absurd hab (lt_irrefl _)
    | cons x1 xs =>
      simp only [List.map_cons, lerp]
      have h01 : x0 < x1 := (List.pairwise_cons.1 hs).1 x1 (List.mem_cons_self ..)
      have hs' := (List.pairwise_cons.1 hs).2
      have hbx : b ∈ x1 :: xs := by
        rcases List.mem_cons.1 hb with rfl | hb
        · rcases List.mem_cons.1 ha with rfl | ha
          · exact absurd hab (lt_irrefl _)
          · exact absurd ((List.pairwise_cons.1 hs).1 a ha) (not_lt.2 hab.le)
        · exact hb
      rcases List.mem_cons.1 ha with rfl | ha
      · rw [if_neg (not_le.2 hax)]
        have : x1 = b := by
          rcases hbet x1 (by simp) with h | h
          · exact absurd h01 (not_lt.2 h)
          · rcases List.mem_cons.1 hbx with rfl | hb2
            · rfl
            · exact absurd ((List.pairwise_cons.1 hs').1 b hb2) (not_lt.2 h)
        subst this
        rw [if_pos hxb.le]
      · have hlt : x0 < a := (List.pairwise_cons.1 hs).1 a ha
        rw [if_neg (not_le.2 (hlt.trans hax))]
        have h1a : x1 ≤ a := by
          rcases List.mem_cons.1 ha with rfl | h
          · exact le_rfl
          · exact ((List.pairwise_cons.1 hs').1 a h).le
        rw [if_neg (not_le.2 (h1a.trans_lt hax))]
        exact ih hs' ha hbx (fun u hu => hbet u (List.mem_cons_of_mem _ hu))

theorem lerp_below (xs : List K) (vs : List K) (a x : K) (ha : xs.head? = some a) (hx : x ≤ a) :
    lerp xs vs x = lerp xs vs a := by
  match xs, vs with
  | [], _ => rfl
  | _ :: _, [] => simp [lerp]
  | [_], _ :: _ => rfl
  | _ :: _ :: _, [_] => rfl
  | x0 :: x1 :: xs, v0 :: v1 :: vs =>
    simp only [List.head?_cons, Option.some.injEq] at ha
    subst ha
    simp only [lerp, if_pos hx, if_pos (le_refl x0)]

theorem lerp_above (xs : List K) (f : K → K) (hs : xs.Pairwise (· < ·)) (a x : K) (ha : a ∈ xs)
    (hl : ∀ u ∈ xs, u ≤ a) (hx : a ≤ x) : lerp xs (xs.map f) x = f a := by
  rcases hx.eq_or_lt with rfl | hx
  · exact lerp_node xs f hs a ha
  induction xs with
  | nil => cases ha
  | cons x0 xs ih =>
    cases xs with
    | nil => simp only [List.mem_singleton] at ha; subst ha; rfl
    | cons x1 xs =>
      simp only [List.map_cons, lerp]
      rw [if_neg (not_le.2 ((hl x0 (by simp)).trans_lt hx)), if_neg (not_le.2 ((hl x1 (by simp)).trans_lt hx))]
      have hs' := (List.pairwise_cons.1 hs).2
      refine ih hs' ?_ (fun u hu => hl u (List.mem_cons_of_mem _ hu))
      rcases List.mem_cons.1 ha with rfl | ha
      · exact absurd ((List.pairwise_cons.1 hs).1 x1 (by simp)) (not_lt.2 (hl x1 (by simp)))
      · exact ha

theorem lerp_below' (xs : List K) (f : K → K) (hs : xs.Pairwise (· < ·)) (a x : K) (ha : a ∈ xs)
    (hl : ∀ u ∈ xs, a ≤ u) (hx : x ≤ a) : lerp xs (xs.map f) x = f a := by
  have : xs.head? = some a := by
    cases xs with
    | nil => cases ha
    | cons x0 xs =>
      rcases List.mem_cons.1 ha with rfl | ha
      · rfl
      · exact absurd ((List.pairwise_cons.1 hs).1 a ha) (not_lt.2 (hl x0 (by simp)))
  rw [lerp_below xs _ a x this hx, lerp_node xs f hs a ha]

/-- A value between the smallest and the greatest. -/
theorem lerp_range (xs : List K) (f : K → K) (hs : xs.Pairwise (· < ·)) (hne : xs ≠ []) (lo hi x : K)
    (hf : ∀ u ∈ xs, lo ≤ f u ∧ f u ≤ hi) : lo ≤ lerp xs (xs.map f) x ∧ lerp xs (xs.map f) x ≤ hi := by
  induction xs with
  | nil => exact absurd rfl hne
  | cons x0 xs ih =>
    cases xs with
    | nil => exact hf x0 (by simp)
    | cons x1 xs =>
      simp only [List.map_cons, lerp]
      have h01 : x0 < x1 := (List.pairwise_cons.1 hs).1 x1 (List.mem_cons_self ..)
      have hs' := (List.pairwise_cons.1 hs).2
      by_cases h1 : x ≤ x0
      · rw [if_pos h1]; exact hf x0 (by simp)
      rw [if_neg h1]
      by_cases h2 : x ≤ x1
      · rw [if_pos h2]
        have hd : 0 < x1 - x0 := sub_pos.2 h01
        have ht0 : 0 ≤ (x - x0) / (x1 - x0) := div_nonneg (sub_nonneg.2 (not_le.1 h1).le) hd.le
        have ht1 : (x - x0) / (x1 - x0) ≤ 1 := by
          rw [div_le_one hd]; linarith
        obtain ⟨t, ht⟩ : ∃ t, t = (x - x0) / (x1 - x0) := ⟨_, rfl⟩
        rw [← ht] at ht0 ht1 ⊢
        obtain ⟨a1, a2⟩ := hf x0 (by simp)
        obtain ⟨b1, b2⟩ := hf x1 (by simp)
        have e : f x0 + t * (f x1 - f x0) = (1 - t) * f x0 + t * f x1 := by ring
        rw [e]
        have hu : 0 ≤ 1 - t := sub_nonneg.2 ht1
        constructor
        · calc lo = (1 - t) * lo + t * lo := by ring
            _ ≤ _ := add_le_add (mul_le_mul_of_nonneg_left a1 hu) (mul_le_mul_of_nonneg_left b1 ht0)
        · calc _ ≤ (1 - t) * hi + t * hi :=
              add_le_add (mul_le_mul_of_nonneg_left a2 hu) (mul_le_mul_of_nonneg_left b2 ht0)
            _ = hi := by ring
      · rw [if_neg h2]
        exact ih hs' (by simp) (fun u hu => hf u (List.mem_cons_of_mem _ hu))

/-- A table that belongs to a function. -/
def tab (zs ms : List K) (F : K → K → K) : List (List K) := zs.map (fun z => ms.map (F z))

theorem ev_tab (zs ms : List K) (F : K → K → K) (z m : K) :
    ev zs ms (tab zs ms F) z m = lerp zs (zs.map (fun z => lerp ms (ms.map (F z)) m)) z := by
  unfold ev tab
  rw [List.map_map]; rfl

/-! ## The tables -/

theorem given_iff (r : Row K) : Given r ↔ missing r.sfr = false := by
  unfold Given missing
  have e : (1 : K) / 10 ^ 5 * |(-1000 : K)| = 1 / 10 ^ 2 := by
    rw [abs_neg, abs_of_pos (by norm_num : (0 : K) < 1000)]; norm_num
  have e2 : r.sfr - (-1000) = r.sfr + 1000 := by ring
  rw [e, e2, decide_eq_false_iff_not]

theorem filter_one (data : List (Row K)) (p10 : K → K) (hp : StrictMono p10) (hc : Complete data) (r : Row K)
    (hr : r ∈ data) :
    (data.map (Row.conv p10)).filter (fun r' => decide (r'.m = p10 r.m) && decide (r'.z = r.z - 1)) =
      [r.conv p10] := by
  rw [List.filter_map]
  have h := hc.once
  have key : data.filter ((fun r' : Row K => decide (r'.m = p10 r.m) && decide (r'.z = r.z - 1)) ∘ Row.conv p10) = [r] := by
    have e : ((fun r' : Row K => decide (r'.m = p10 r.m) && decide (r'.z = r.z - 1)) ∘ Row.conv p10) =
        fun r' => decide (r'.m = r.m) && decide (r'.z = r.z) := by
      funext r'
      simp only [Function.comp, Row.conv, hp.injective.eq_iff, sub_left_inj]
    rw [e]
    clear e hc
    induction data with
    | nil => cases hr
    | cons a as ih =>
      obtain ⟨h1, h2⟩ := List.pairwise_cons.1 h
      by_cases hra : r = a
      · subst hra
        rw [List.filter_cons_of_pos (by simp)]
        congr 1
        rw [List.filter_eq_nil_iff]
        intro x hx hh
        simp only [Bool.and_eq_true, decide_eq_true_eq] at hh
        exact h1 x hx ⟨hh.2.symm, hh.1.symm⟩
      · have hr' : r ∈ as := by
          rcases List.mem_cons.1 hr with h | h
          · exact absurd h hra
          · exact h
        rw [List.filter_cons_of_neg]
        · exact ih hr' h2
        · simp only [Bool.and_eq_true, decide_eq_true_eq]
          intro hh
          exact h1 r hr' ⟨hh.2, hh.1⟩
  rw [key]; rfl

/-- The axes. -/
def axisZ (data : List (Row K)) : List K := unique (data.map (fun r => r.z - 1))

def axisM (p10 : K → K) (data : List (Row K)) : List K := unique (data.map (fun r => p10 r.m))

theorem axes_mem (p10 : K → K) (data : List (Row K)) (hp : StrictMono p10) (hc : Complete data) (z m : K)
    (hz : z ∈ axisZ data) (hm : m ∈ axisM p10 data) : ∃ r ∈ data, r.z - 1 = z ∧ p10 r.m = m := by
  simp only [axisZ, axisM, mem_unique, List.mem_map] at hz hm
  obtain ⟨r1, h1, rfl⟩ := hz
  obtain ⟨r2, h2, rfl⟩ := hm
  obtain ⟨r, hr, e1, e2⟩ := hc.all r1 h1 r2 h2
  exact ⟨r, hr, by rw [e1], by rw [e2]⟩

theorem mem_axisZ (data : List (Row K)) (r : Row K) (h : r ∈ data) : r.z - 1 ∈ axisZ data := by
  simp only [axisZ, mem_unique, List.mem_map]; exact ⟨r, h, rfl⟩

theorem mem_axisM (p10 : K → K) (data : List (Row K)) (r : Row K) (h : r ∈ data) : p10 r.m ∈ axisM p10 data := by
  simp only [axisM, mem_unique, List.mem_map]; exact ⟨r, h, rfl⟩

theorem entry_row (p10 : K → K) (data : List (Row K)) (hp : StrictMono p10) (hc : Complete data) (f : Row K → K)
    (r : Row K) (hr : r ∈ data) : entry (data.map (Row.conv p10)) f (r.z - 1) (p10 r.m) = .ok (f (r.conv p10)) := by
  unfold entry
  rw [filter_one data p10 hp hc r hr]

/-- The row at a redshift and a mass. -/
noncomputable def look (p10 : K → K) (data : List (Row K)) (z m : K) : Row K :=
  open Classical in
  if h : ∃ r ∈ data, r.z - 1 = z ∧ p10 r.m = m then h.choose else ⟨0, 0, 0, 0⟩

theorem look_row (p10 : K → K) (data : List (Row K)) (hp : StrictMono p10) (hc : Complete data) (r : Row K)
    (hr : r ∈ data) : look p10 data (r.z - 1) (p10 r.m) = r := by
  have hex : ∃ r' ∈ data, r'.z - 1 = r.z - 1 ∧ p10 r'.m = p10 r.m := ⟨r, hr, rfl, rfl⟩
  unfold look
  rw [dif_pos hex]
  obtain ⟨h1, h2, h3⟩ := hex.choose_spec
  have e1 := filter_one data p10 hp hc r hr
  by_contra hne
  have hz := sub_left_inj.1 h2
  have hm := hp.injective h3
  obtain ⟨i, hi⟩ := List.getElem?_of_mem h1
  obtain ⟨j, hj⟩ := List.getElem?_of_mem hr
  have hij : i ≠ j := by
    rintro rfl
    rw [hi] at hj
    exact hne (Option.some.inj hj)
  have hpw := List.pairwise_iff_getElem.1 hc.once
  obtain ⟨hi1, hi2⟩ := List.getElem?_eq_some_iff.1 hi
  obtain ⟨hj1, hj2⟩ := List.getElem?_eq_some_iff.1 hj
  rcases lt_or_gt_of_ne hij with h | h
  · exact hpw i j hi1 hj1 h (by rw [hi2, hj2]; exact ⟨hz, hm⟩)
  · exact hpw j i hj1 hi1 h (by rw [hi2, hj2]; exact ⟨hz.symm, hm.symm⟩)

theorem table_ok (p10 : K → K) (data : List (Row K)) (hp : StrictMono p10) (hc : Complete data) (f : Row K → K) :
    table (data.map (Row.conv p10)) f (axisZ data) (axisM p10 data) =
      .ok (tab (axisZ data) (axisM p10 data) (fun z m => f ((look p10 data z m).conv p10))) := by
  unfold table tab
  refine mapE_map _ _ _ (fun z hz => mapE_map _ _ _ (fun m hm => ?_))
  obtain ⟨r, hr, rfl, rfl⟩ := axes_mem p10 data hp hc z m hz hm
  rw [entry_row p10 data hp hc f r hr]
  simp only [look_row p10 data hp hc r hr]

theorem last_greatest (l : List K) (hs : l.Pairwise (· < ·)) (x : K) (h : l.getLast? = some x) : ∀ y ∈ l, y ≤ x := by
  intro y hy
  rcases List.eq_nil_or_concat l with rfl | ⟨l', a, rfl⟩
  · cases hy
  · simp only [List.concat_eq_append] at *
    rw [List.getLast?_append] at h
    simp only [List.getLast?_singleton, Option.some_or, Option.some.injEq] at h
    subst h
    rcases List.mem_append.1 hy with hy | hy
    · exact ((List.pairwise_append.1 hs).2.2 y hy a (by simp)).le
    · simp only [List.mem_singleton] at hy; exact hy.le

/-- Filling a column. -/
theorem fill_ok (ms : List K) (g : K → K) (hs : ms.Pairwise (· < ·)) (hex : ∃ m ∈ ms, missing (g m) = false) :
    ∃ q, q ∈ ms ∧ missing (g q) = false ∧ (∀ m ∈ ms, missing (g m) = false → m ≤ q) ∧
      fill (ms.map g) = .ok (ms.map (fun m => if missing (g m) then g q else g m)) := by
  obtain ⟨m0, hm0, hg0⟩ := hex
  have hmem : m0 ∈ ms.filter (fun m => !missing (g m)) := by
    rw [List.mem_filter]; exact ⟨hm0, by simp [hg0]⟩
  rcases hl : (ms.filter (fun m => !missing (g m))).getLast? with _ | q
  · rw [List.getLast?_eq_none_iff] at hl; rw [hl] at hmem; cases hmem
  · have hq := List.mem_of_getLast? hl
    rw [List.mem_filter] at hq
    have hq2 : missing (g q) = false := by simpa using hq.2
    refine ⟨q, hq.1, hq2, fun m hm hgm => last_greatest _ (hs.filter _) q hl m ?_, ?_⟩
    · rw [List.mem_filter]; exact ⟨hm, by simp [hgm]⟩
    · unfold fill
      have e : ((ms.map g).filter (fun x => !missing x)).getLast? = some (g q) := by
        rw [List.filter_map]
        have e2 : ((fun x : K => !missing x) ∘ g) = fun m => !missing (g m) := rfl
        rw [e2, List.getLast?_map, hl]; rfl
      rw [e]
      simp only [List.map_map]
      rfl

/-- The tables made from complete data. -/
theorem make_ok (p10 : K → K) (data : List (Row K)) (hp : StrictMono p10) (hc : Complete data)
    (hg : ∀ r ∈ data, ∃ r' ∈ data, r'.z = r.z ∧ Given r') :
    ∃ F : K → K → K, make p10 data = .ok ⟨axisZ data, axisM p10 data, tab (axisZ data) (axisM p10 data) F,
        tab (axisZ data) (axisM p10 data) (fun z m => p10 (look p10 data z m).sm)⟩ ∧
      ∀ r ∈ data, (Given r → F (r.z - 1) (p10 r.m) = p10 r.sfr) ∧
        (¬ Given r → ∃ h, Heaviest data r.z h ∧ F (r.z - 1) (p10 r.m) = p10 h.sfr) := by
  have hsm : (axisM p10 data).Pairwise (· < ·) := unique_sorted _
  have hcol : ∀ z ∈ axisZ data, ∃ q, q ∈ axisM p10 data ∧ missing (look p10 data z q).sfr = false ∧
      (∀ m ∈ axisM p10 data, missing (look p10 data z m).sfr = false → m ≤ q) ∧
      fill ((axisM p10 data).map (fun m => (look p10 data z m).sfr)) =
        .ok ((axisM p10 data).map (fun m =>
          if missing (look p10 data z m).sfr then (look p10 data z q).sfr else (look p10 data z m).sfr)) := by
    intro z hz
    refine fill_ok (axisM p10 data) (fun m => (look p10 data z m).sfr) hsm ?_
    simp only [axisZ, mem_unique, List.mem_map] at hz
    obtain ⟨r, hr, rfl⟩ := hz
    obtain ⟨r', hr', e, hgr⟩ := hg r hr
    refine ⟨p10 r'.m, mem_axisM p10 data r' hr', ?_⟩
    rw [← e, look_row p10 data hp hc r' hr']
    exact (given_iff r').1 hgr
  choose! q hq1 hq2 hq3 hq4 using hcol
  refine ⟨fun z m => p10 (if missing (look p10 data z m).sfr then (look p10 data z (q z)).sfr
      else (look p10 data z m).sfr), ?_, ?_⟩
  · unfold make
    have ez : unique ((data.map (Row.conv p10)).map (·.z)) = axisZ data := by
      unfold axisZ; rw [List.map_map]; rfl
    have em : unique ((data.map (Row.conv p10)).map (·.m)) = axisM p10 data := by
      unfold axisM; rw [List.map_map]; rfl
    simp only [ez, em]
    rw [table_ok p10 data hp hc (·.sfr)]
    simp only
    rw [table_ok p10 data hp hc (·.sm)]
    simp only
    have e3 : mapE fill (tab (axisZ data) (axisM p10 data) (fun z m => ((look p10 data z m).conv p10).sfr)) =
        .ok (tab (axisZ data) (axisM p10 data) (fun z m => if missing (look p10 data z m).sfr
          then (look p10 data z (q z)).sfr else (look p10 data z m).sfr)) := by
      have : ∀ l : List K, (∀ z ∈ l, z ∈ axisZ data) →
          mapE fill (tab l (axisM p10 data) (fun z m => ((look p10 data z m).conv p10).sfr)) =
          .ok (tab l (axisM p10 data) (fun z m => if missing (look p10 data z m).sfr
            then (look p10 data z (q z)).sfr else (look p10 data z m).sfr)) := by
        intro l hl
        induction l with
        | nil => rfl
        | cons z l ih =>
          have i2 := ih (fun y hy => hl y (List.mem_cons_of_mem _ hy))
          have i1 := hq4 z (hl z (List.mem_cons_self ..))
          unfold tab at i2 ⊢
          simp only [List.map_cons, mapE]
          have e : (axisM p10 data).map (fun m => ((look p10 data z m).conv p10).sfr) =
              (axisM p10 data).map (fun m => (look p10 data z m).sfr) := rfl
          rw [e, i1]
          simp only
          rw [i2]
      exact this _ (fun z hz => hz)
    rw [e3]
    simp only [tab, List.map_map, Function.comp_def, Row.conv]
  · intro r hr
    have hzr := mem_axisZ data r hr
    refine ⟨fun hgr => ?_, fun hgr => ?_⟩
    · simp only [look_row p10 data hp hc r hr]
      rw [(given_iff r).1 hgr]; simp
    · obtain ⟨r', hr', e1, e2⟩ := axes_mem p10 data hp hc (r.z - 1) (q (r.z - 1)) hzr (hq1 _ hzr)
      have el : look p10 data (r.z - 1) (q (r.z - 1)) = r' := by
        have := look_row p10 data hp hc r' hr'
        rw [e1, e2] at this; exact this
      refine ⟨r', ⟨hr', sub_left_inj.1 e1, ?_, ?_⟩, ?_⟩
      · rw [given_iff, ← el]; exact hq2 _ hzr
      · intro r2 hr2 ez hg2
        have := hq3 (r.z - 1) hzr (p10 r2.m) (mem_axisM p10 data r2 hr2)
          (by rw [← ez, look_row p10 data hp hc r2 hr2]; exact (given_iff r2).1 hg2)
        rw [← e2] at this
        exact hp.le_iff_le.1 this
      · have hmiss : missing r.sfr = true := by
          rcases h : missing r.sfr with _ | _
          · exact absurd ((given_iff r).2 h) hgr
          · rfl
        simp only [look_row p10 data hp hc r hr, hmiss, if_true, el]

end Verif.Beh
