import Mathlib.Algebra.Order.Field.Rat
import Mathlib.Algebra.Order.Ring.Rat
import Mathlib.Tactic.IntervalCases
import Verif.Lemmas.Behroozi
import Verif.Lemmas.RawFiles

set_option linter.unusedSectionVars false

/-!
# C109: the star formation rates and stellar masses of halos, and the files they are read from
-/

namespace Verif.Beh

open Spec

variable {K : Type} [Field K] [LinearOrder K] [IsStrictOrderedRing K]

/-! ## Values -/

/-- Usable data give tables, and the splines can be made. -/
theorem C109_made (p10 : K → K) (data : List (Row K)) (hp : StrictMono p10) (hu : Usable data) :
    ∃ t, make p10 data = .ok t ∧ splines t = .ok t := by
  obtain ⟨F, hF, _⟩ := make_ok p10 data hp hu.complete hu.given
  refine ⟨_, hF, ?_⟩
  have two : ∀ (l : List K) (x y : K), x ∈ l → y ∈ l → x ≠ y → ¬ l.length < 2 := by
    intro l x y hx hy hne hl
    match l, hl with
    | [], _ => cases hx
    | [a], _ =>
      simp only [List.mem_singleton] at hx hy
      exact hne (hx.trans hy.symm)
  unfold splines
  rw [if_neg]
  rintro (h | h)
  · obtain ⟨r, hr, r', hr', hne⟩ := hu.redshifts
    exact two _ _ _ (mem_axisZ data r hr) (mem_axisZ data r' hr') (fun e => hne (sub_left_inj.1 e)) h
  · obtain ⟨r, hr, r', hr', hne⟩ := hu.masses
    exact two _ _ _ (mem_axisM p10 data r hr) (mem_axisM p10 data r' hr') (fun e => hne (hp.injective e)) h

/-- At a redshift and a mass of the data: the star formation rate and the stellar mass given there; where the data give
no star formation rate, the one of the heaviest halo at that redshift for which they do. -/
theorem C109_nodes (p10 : K → K) (data : List (Row K)) (hp : StrictMono p10) (hu : Usable data) (t : Tables K)
    (ht : make p10 data = .ok t) (r : Row K) (hr : r ∈ data) :
    (Given r → sfr t (r.z - 1) (p10 r.m) = p10 r.sfr) ∧
    (¬ Given r → ∃ h, Heaviest data r.z h ∧ sfr t (r.z - 1) (p10 r.m) = p10 h.sfr) ∧
    stellarmass t (r.z - 1) (p10 r.m) = p10 r.sm := by
  obtain ⟨F, hF, hrows⟩ := make_ok p10 data hp hu.complete hu.given
  rw [hF, Except.ok.injEq] at ht
  subst ht
  have node : ∀ G : K → K → K, ev (axisZ data) (axisM p10 data) (tab (axisZ data) (axisM p10 data) G) (r.z - 1)
      (p10 r.m) = G (r.z - 1) (p10 r.m) := by
    intro G
    have sz : (axisZ data).Pairwise (· < ·) := unique_sorted _
    have sm : (axisM p10 data).Pairwise (· < ·) := unique_sorted _
    rw [ev_tab, lerp_node _ _ sz _ (mem_axisZ data r hr), lerp_node _ _ sm _ (mem_axisM p10 data r hr)]
  simp only [sfr, stellarmass, node, look_row p10 data hp hu.complete r hr]
  exact ⟨(hrows r hr).1, (hrows r hr).2, trivial⟩

/-- The functions made from a table. -/
theorem sfr_tab (p10 : K → K) (data : List (Row K)) (hp : StrictMono p10) (hu : Usable data) (t : Tables K)
    (ht : make p10 data = .ok t) :
    (∃ F, ∀ z m, sfr t z m = ev (axisZ data) (axisM p10 data) (tab (axisZ data) (axisM p10 data) F) z m) ∧
    ∃ F, ∀ z m, stellarmass t z m = ev (axisZ data) (axisM p10 data) (tab (axisZ data) (axisM p10 data) F) z m := by
  obtain ⟨F, hF, _⟩ := make_ok p10 data hp hu.complete hu.given
  rw [hF, Except.ok.injEq] at ht
  subst ht
  exact ⟨⟨F, fun _ _ => rfl⟩, ⟨_, fun _ _ => rfl⟩⟩

theorem neighbours_unique (l : List K) (a b : K) (h : Neighbours l a b) : Neighbours (unique l) a b := by
  obtain ⟨h1, h2, h3, h4⟩ := h
  exact ⟨(mem_unique ..).2 h1, (mem_unique ..).2 h2, h3, fun u hu => h4 u ((mem_unique ..).1 hu)⟩

/-- Between neighbouring redshifts and masses of the data the values are interpolated linearly in the redshift and in
the mass. -/
theorem C109_between (p10 : K → K) (data : List (Row K)) (hp : StrictMono p10) (hu : Usable data) (t : Tables K)
    (ht : make p10 data = .ok t) (z1 z2 m1 m2 z m : K) (hz : Neighbours (data.map (fun r => r.z - 1)) z1 z2)
    (hm : Neighbours (data.map (fun r => p10 r.m)) m1 m2) (h1 : z1 ≤ z) (h2 : z ≤ z2) (h3 : m1 ≤ m) (h4 : m ≤ m2) :
    sfr t z m = bilinear (sfr t z1 m1) (sfr t z1 m2) (sfr t z2 m1) (sfr t z2 m2) ((z - z1) / (z2 - z1))
      ((m - m1) / (m2 - m1)) ∧
    stellarmass t z m = bilinear (stellarmass t z1 m1) (stellarmass t z1 m2) (stellarmass t z2 m1)
      (stellarmass t z2 m2) ((z - z1) / (z2 - z1)) ((m - m1) / (m2 - m1)) := by
  obtain ⟨⟨F, hF⟩, ⟨G, hG⟩⟩ := sfr_tab p10 data hp hu t ht
  have hz' : Neighbours (axisZ data) z1 z2 := neighbours_unique _ _ _ hz
  have hm' : Neighbours (axisM p10 data) m1 m2 := neighbours_unique _ _ _ hm
  have sz : (axisZ data).Pairwise (· < ·) := unique_sorted _
  have sm : (axisM p10 data).Pairwise (· < ·) := unique_sorted _
  have key : ∀ F : K → K → K, ∀ f : K → K → K,
      (∀ z m, f z m = ev (axisZ data) (axisM p10 data) (tab (axisZ data) (axisM p10 data) F) z m) →
      f z m = bilinear (f z1 m1) (f z1 m2) (f z2 m1) (f z2 m2) ((z - z1) / (z2 - z1)) ((m - m1) / (m2 - m1)) := by
    intro F f hf
    simp only [hf, ev_tab]
    rw [lerp_between _ _ sz z1 z2 z hz' h1 h2]
    rw [lerp_node _ _ sz z1 hz'.1, lerp_node _ _ sz z2 hz'.2.1, lerp_node _ _ sz z1 hz'.1, lerp_node _ _ sz z2 hz'.2.1]
    rw [lerp_between _ _ sm m1 m2 m hm' h3 h4, lerp_between _ _ sm m1 m2 m hm' h3 h4]
    rw [lerp_node _ _ sm m1 hm'.1, lerp_node _ _ sm m2 hm'.2.1, lerp_node _ _ sm m1 hm'.1, lerp_node _ _ sm m2 hm'.2.1]
    unfold bilinear
    ring
  exact ⟨key F _ hF, key G _ hG⟩

/-- Halos outside of the data: beyond the last redshift (or before the first) the values at that redshift, and for
masses above the greatest (or below the smallest) the values at that mass. -/
theorem C109_outside (p10 : K → K) (data : List (Row K)) (hp : StrictMono p10) (hu : Usable data) (t : Tables K)
    (ht : make p10 data = .ok t) (r : Row K) (hr : r ∈ data) (z m : K) :
    ((∀ r' ∈ data, r'.z ≤ r.z) → r.z - 1 ≤ z → sfr t z m = sfr t (r.z - 1) m ∧
      stellarmass t z m = stellarmass t (r.z - 1) m) ∧
    ((∀ r' ∈ data, r.z ≤ r'.z) → z ≤ r.z - 1 → sfr t z m = sfr t (r.z - 1) m ∧
      stellarmass t z m = stellarmass t (r.z - 1) m) ∧
    ((∀ r' ∈ data, r'.m ≤ r.m) → p10 r.m ≤ m → sfr t z m = sfr t z (p10 r.m) ∧
      stellarmass t z m = stellarmass t z (p10 r.m)) ∧
    ((∀ r' ∈ data, r.m ≤ r'.m) → m ≤ p10 r.m → sfr t z m = sfr t z (p10 r.m) ∧
      stellarmass t z m = stellarmass t z (p10 r.m)) := by
  obtain ⟨⟨F, hF⟩, ⟨G, hG⟩⟩ := sfr_tab p10 data hp hu t ht
  have sz : (axisZ data).Pairwise (· < ·) := unique_sorted _
  have sm : (axisM p10 data).Pairwise (· < ·) := unique_sorted _
  have hz := mem_axisZ data r hr
  have hm := mem_axisM p10 data r hr
  have zmem : ∀ u ∈ axisZ data, ∃ r' ∈ data, u = r'.z - 1 := by
    intro u hu
    simp only [axisZ, mem_unique, List.mem_map] at hu
    obtain ⟨r', h, rfl⟩ := hu
    exact ⟨r', h, rfl⟩
  have mmem : ∀ u ∈ axisM p10 data, ∃ r' ∈ data, u = p10 r'.m := by
    intro u hu
    simp only [axisM, mem_unique, List.mem_map] at hu
    obtain ⟨r', h, rfl⟩ := hu
    exact ⟨r', h, rfl⟩
  refine ⟨fun hl hx => ?_, fun hl hx => ?_, fun hl hx => ?_, fun hl hx => ?_⟩
  · have hl' : ∀ u ∈ axisZ data, u ≤ r.z - 1 := by
      intro u hu
      obtain ⟨r', h, rfl⟩ := zmem u hu
      linarith [hl r' h]
    simp only [hF, hG, ev_tab, lerp_above _ _ sz _ _ hz hl' hx, lerp_node _ _ sz _ hz, and_self]
  · have hl' : ∀ u ∈ axisZ data, r.z - 1 ≤ u := by
      intro u hu
      obtain ⟨r', h, rfl⟩ := zmem u hu
      linarith [hl r' h]
    simp only [hF, hG, ev_tab, lerp_below' _ _ sz _ _ hz hl' hx, lerp_node _ _ sz _ hz, and_self]
  · have hl' : ∀ u ∈ axisM p10 data, u ≤ p10 r.m := by
      intro u hu
      obtain ⟨r', h, rfl⟩ := mmem u hu
      exact hp.monotone (hl r' h)
    simp only [hF, hG, ev_tab, lerp_above _ _ sm _ _ hm hl' hx, lerp_node _ _ sm _ hm, and_self]
  · have hl' : ∀ u ∈ axisM p10 data, p10 r.m ≤ u := by
      intro u hu
      obtain ⟨r', h, rfl⟩ := mmem u hu
      exact hp.monotone (hl r' h)
    simp only [hF, hG, ev_tab, lerp_below' _ _ sm _ _ hm hl' hx, lerp_node _ _ sm _ hm, and_self]

/-- Every halo, whatever its redshift and mass, gets a star formation rate between the smallest and the greatest given in
the data and a stellar mass between the smallest and the greatest: never a negative one, and never -1000. -/
theorem C109_range (p10 : K → K) (data : List (Row K)) (hp : StrictMono p10) (hu : Usable data) (t : Tables K)
    (ht : make p10 data = .ok t) (z m lo hi : K) :
    ((∀ r ∈ data, Given r → lo ≤ r.sfr ∧ r.sfr ≤ hi) → p10 lo ≤ sfr t z m ∧ sfr t z m ≤ p10 hi) ∧
    ((∀ r ∈ data, lo ≤ r.sm ∧ r.sm ≤ hi) → p10 lo ≤ stellarmass t z m ∧ stellarmass t z m ≤ p10 hi) := by
  obtain ⟨F, hF, hrows⟩ := make_ok p10 data hp hu.complete hu.given
  rw [hF, Except.ok.injEq] at ht
  subst ht
  obtain ⟨r0, hr0, _⟩ := hu.redshifts
  have sz : (axisZ data).Pairwise (· < ·) := unique_sorted _
  have sm : (axisM p10 data).Pairwise (· < ·) := unique_sorted _
  have nz : axisZ data ≠ [] := List.ne_nil_of_mem (mem_axisZ data r0 hr0)
  have nm : axisM p10 data ≠ [] := List.ne_nil_of_mem (mem_axisM p10 data r0 hr0)
  have key : ∀ G : K → K → K, (∀ r ∈ data, p10 lo ≤ G (r.z - 1) (p10 r.m) ∧ G (r.z - 1) (p10 r.m) ≤ p10 hi) →
      p10 lo ≤ ev (axisZ data) (axisM p10 data) (tab (axisZ data) (axisM p10 data) G) z m ∧
      ev (axisZ data) (axisM p10 data) (tab (axisZ data) (axisM p10 data) G) z m ≤ p10 hi := by
    intro G hG
    rw [ev_tab]
    refine lerp_range _ _ sz nz _ _ _ (fun u hu' => lerp_range _ _ sm nm _ _ _ (fun v hv => ?_))
    obtain ⟨r, hr, rfl, rfl⟩ := axes_mem p10 data hp hu.complete u v hu' hv
    exact hG r hr
  refine ⟨fun h => key F (fun r hr => ?_), fun h => key _ (fun r hr => ?_)⟩
  · by_cases hg : Given r
    · rw [(hrows r hr).1 hg]
      exact ⟨hp.monotone (h r hr hg).1, hp.monotone (h r hr hg).2⟩
    · obtain ⟨q, hq, e⟩ := (hrows r hr).2 hg
      rw [e]
      exact ⟨hp.monotone (h q hq.mem hq.given).1, hp.monotone (h q hq.mem hq.given).2⟩
  · simp only [look_row p10 data hp hu.complete r hr]
    exact ⟨hp.monotone (h r hr).1, hp.monotone (h r hr).2⟩

theorem entry_error (rows : List (Row K)) (f : Row K → K) (z m : K) (e : Err) (h : entry rows f z m = .error e) :
    e = .valueError := by
  unfold entry at h
  split at h
  · cases h
  · cases h; rfl

/-- Data in which a combination of a redshift and a mass is missing or occurs twice are refused. -/
theorem C109_incomplete (p10 : K → K) (data : List (Row K)) (hp : StrictMono p10) (h : ¬ Complete data) :
    make p10 data = .error .valueError := by
  have ez : unique ((data.map (Row.conv p10)).map (·.z)) = axisZ data := by
    unfold axisZ; rw [List.map_map]; rfl
  have em : unique ((data.map (Row.conv p10)).map (·.m)) = axisM p10 data := by
    unfold axisM; rw [List.map_map]; rfl
  have hcol : ∀ z e', mapE (entry (data.map (Row.conv p10)) (·.sfr) z) (axisM p10 data) = .error e' →
      e' = .valueError := by
    intro z e' he
    by_contra hne
    have : ∀ l : List K, mapE (entry (data.map (Row.conv p10)) (·.sfr) z) l ≠ .error e' := by
      intro l
      induction l with
      | nil => simp [mapE]
      | cons m l ih =>
        simp only [mapE]
        rcases hm : entry (data.map (Row.conv p10)) (·.sfr) z m with e2 | v
        · simp only [ne_eq, Except.error.injEq]
          rintro rfl
          exact hne (entry_error _ _ _ _ _ hm)
        · rcases hl : mapE (entry (data.map (Row.conv p10)) (·.sfr) z) l with e2 | vs
          · simp only [ne_eq, Except.error.injEq]
            rintro rfl
            exact ih hl
          · simp
    exact this _ he
  have bad : (∃ z ∈ axisZ data, ∃ m ∈ axisM p10 data, entry (data.map (Row.conv p10)) (·.sfr) z m = .error .valueError) →
      make p10 data = .error .valueError := by
    rintro ⟨z, hz, m, hm, he⟩
    unfold make
    simp only [ez, em]
    have : table (data.map (Row.conv p10)) (·.sfr) (axisZ data) (axisM p10 data) = .error .valueError := by
      refine mapE_fail _ _ _ z hz (mapE_fail _ _ _ m hm he (fun y _ e' he' => entry_error _ _ _ _ _ he')) ?_
      intro y _ e' he'
      exact hcol y e' he'
    rw [this]
  by_contra hmk
  apply h
  have good : ∀ z ∈ axisZ data, ∀ m ∈ axisM p10 data, ∃ r,
      (data.map (Row.conv p10)).filter (fun r => decide (r.m = m) && decide (r.z = z)) = [r] := by
    intro z hz m hm
    by_contra hno
    apply hmk
    refine bad ⟨z, hz, m, hm, ?_⟩
    unfold entry
    split
    · rename_i r hr
      exact absurd ⟨r, hr⟩ hno
    · rfl
  constructor
  · rw [List.pairwise_iff_getElem]
    rintro i j hi hj hij ⟨e1, e2⟩
    obtain ⟨r, hr⟩ := good _ (mem_axisZ data data[i] (List.getElem_mem hi)) _
      (mem_axisM p10 data data[i] (List.getElem_mem hi))
    have hlen := congrArg List.length hr
    rw [List.filter_map, List.length_map, ← List.countP_eq_length_filter] at hlen
    have hsub : [data[i], data[j]].Sublist data := by
      have h1 : data = data.take j ++ data.drop j := (List.take_append_drop j data).symm
      have h2 : data[i] ∈ data.take j := by
        rw [List.mem_take_iff_getElem]
        exact ⟨i, by omega, rfl⟩
      have h3 : data.drop j = data[j] :: data.drop (j + 1) := List.drop_eq_getElem_cons hj
      have h4 : data[j] ∈ data.drop j := by
        have := List.mem_cons_self (a := data[j]) (l := data.drop (j + 1))
        rwa [← h3] at this
      have := List.Sublist.append (List.singleton_sublist.2 h2) (List.singleton_sublist.2 h4)
      rw [← h1] at this
      exact this
    have := hsub.countP_le (p := (fun r : Row K => decide (r.m = p10 data[i].m) && decide (r.z = data[i].z - 1)) ∘
      Row.conv p10)
    rw [hlen] at this
    simp [List.countP_cons, Row.conv, ← e1, ← e2] at this
  · intro r hr r' hr'
    obtain ⟨q, hq⟩ := good _ (mem_axisZ data r hr) _ (mem_axisM p10 data r' hr')
    have hmem : q ∈ (data.map (Row.conv p10)).filter (fun x => decide (x.m = p10 r'.m) && decide (x.z = r.z - 1)) := by
      rw [hq]; simp
    rw [List.mem_filter, List.mem_map] at hmem
    obtain ⟨⟨r'', h1, rfl⟩, h2⟩ := hmem
    simp only [Row.conv, Bool.and_eq_true] at h2
    exact ⟨r'', h1, sub_left_inj.1 (of_decide_eq_true h2.2), hp.injective (of_decide_eq_true h2.1)⟩

/-- So are data with a redshift without any star formation rate. -/
theorem C109_no_value (p10 : K → K) (data : List (Row K)) (hp : StrictMono p10) (hc : Complete data) (r : Row K)
    (hr : r ∈ data) (h : ∀ r' ∈ data, r'.z = r.z → ¬ Given r') : make p10 data = .error .indexError := by
  have ez : unique ((data.map (Row.conv p10)).map (·.z)) = axisZ data := by
    unfold axisZ; rw [List.map_map]; rfl
  have em : unique ((data.map (Row.conv p10)).map (·.m)) = axisM p10 data := by
    unfold axisM; rw [List.map_map]; rfl
  unfold make
  simp only [ez, em]
  rw [table_ok p10 data hp hc (·.sfr)]
  simp only
  rw [table_ok p10 data hp hc (·.sm)]
  simp only
  have : mapE fill (tab (axisZ data) (axisM p10 data) (fun z m => ((look p10 data z m).conv p10).sfr)) =
      .error .indexError := by
    refine mapE_fail fill _ _ ((axisM p10 data).map (fun m => ((look p10 data (r.z - 1) m).conv p10).sfr)) ?_ ?_ ?_
    · unfold tab
      exact List.mem_map.2 ⟨r.z - 1, mem_axisZ data r hr, rfl⟩
    · unfold fill
      have e : ((axisM p10 data).map (fun m => ((look p10 data (r.z - 1) m).conv p10).sfr)).filter
          (fun x => !missing x) = [] := by
        rw [List.filter_eq_nil_iff]
        intro x hx hh
        rw [List.mem_map] at hx
        obtain ⟨m, hm, rfl⟩ := hx
        obtain ⟨r', hr', e1, e2⟩ := axes_mem p10 data hp hc (r.z - 1) m (mem_axisZ data r hr) hm
        have el : look p10 data (r.z - 1) m = r' := by
          have := look_row p10 data hp hc r' hr'
          rw [e1, e2] at this; exact this
        simp only [el, Row.conv, Bool.not_eq_true'] at hh
        exact h r' hr' (sub_left_inj.1 e1) ((given_iff r').2 hh)
      rw [e]; rfl
    · intro y _ e' he
      unfold fill at he
      split at he
      · cases he; rfl
      · cases he
  rw [this]

/-! ## Files -/

open Raw (Path File Disk Step after fetch)
open Raw.Spec (interrupted Later)

theorem file_inj (dir : Path) (a b : String) (h : file dir a = file dir b) : a = b := by
  unfold file at h
  have := List.append_cancel_left h
  simp only [List.cons.injEq, true_and] at this
  exact String.toList_injective this

theorem saves_eq (dir : Path) : saves dir =
    ["sfr.npy", "stellarmass.npy", "mass_axis.npy", "redshift_axis.npy"].flatMap (fun n => fetch (file dir n)) := rfl

/-- The first `import simim` after `setupsimim` writes the four files, whatever else there is on the disk, and the
functions work; every later one reads them and writes nothing. -/
theorem C109_first (dir : Path) (t : Tables K) (ht : splines t = .ok t) (d : Disk)
    (h : d (file dir "sfr.npy") = none) :
    base (some dir) (.ok t) d = .ok (some t) ∧
    writes (some dir) (.ok t) (after d (writes (some dir) (.ok t) d)) = [] ∧
    base (some dir) (.ok t) (after d (writes (some dir) (.ok t) d)) = .ok (some t) := by
  have hw : writes (some dir) (.ok t) d = saves dir := by
    simp [writes, h]
  have hall : ∀ n ∈ ["sfr.npy", "stellarmass.npy", "mass_axis.npy", "redshift_axis.npy"],
      after d (saves dir) (file dir n) = some .whole := by
    intro n hn
    have e : saves dir = (["sfr.npy", "stellarmass.npy", "mass_axis.npy", "redshift_axis.npy"].map (file dir)).flatMap
        fetch := rfl
    rw [e, Raw.after_fetches, if_pos (List.mem_map.2 ⟨n, hn, rfl⟩)]
  have hl : load dir (.ok t) (after d (saves dir)) = .ok t := by
    unfold load loadOne
    rw [hall "mass_axis.npy" (by simp), hall "redshift_axis.npy" (by simp), hall "sfr.npy" (by simp),
      hall "stellarmass.npy" (by simp)]
    exact ht
  refine ⟨?_, ?_, ?_⟩
  · simp [base, h, hl]
  · rw [hw]
    simp [writes, hall "sfr.npy" (by simp)]
  · rw [hw]
    simp [base, hall "sfr.npy" (by simp), hl]

/-- Before `setupsimim` nothing is written and the import succeeds. -/
theorem C109_before_setup (mk : Except Err (Tables K)) (d : Disk) : writes none mk d = [] ∧ base none mk d = .ok none :=
  ⟨rfl, rfl⟩

theorem base_stuck (dir : Path) (mk : Except Err (Tables K)) (d : Disk) (h : (d (file dir "sfr.npy")).isSome)
    (n : String) (hn : n ∈ ["sfr.npy", "stellarmass.npy", "mass_axis.npy", "redshift_axis.npy"])
    (hb : d (file dir n) ≠ some .whole) :
    writes (some dir) mk d = [] ∧ ∃ e, base (some dir) mk d = .error e := by
  refine ⟨by simp [writes, h], ?_⟩
  have hl : ∃ e, load dir mk d = .error e := by
    have hone : ∀ f : Path, d f ≠ some .whole → ∃ e, loadOne d f = .error e := by
      intro f hf
      unfold loadOne
      split
      · exact ⟨_, rfl⟩
      · exact ⟨_, rfl⟩
      · rename_i h2; exact absurd h2 hf
    obtain ⟨e, he⟩ := hone _ hb
    unfold load
    rcases h1 : loadOne d (file dir "mass_axis.npy") with e1 | _
    · exact ⟨_, rfl⟩
    rcases h2 : loadOne d (file dir "redshift_axis.npy") with e1 | _
    · exact ⟨_, rfl⟩
    rcases h3 : loadOne d (file dir "sfr.npy") with e1 | _
    · exact ⟨_, rfl⟩
    rcases h4 : loadOne d (file dir "stellarmass.npy") with e1 | _
    · exact ⟨_, rfl⟩
    simp only [List.mem_cons, List.not_mem_nil, or_false] at hn
    rcases hn with rfl | rfl | rfl | rfl
    · rw [h3] at he; cases he
    · rw [h4] at he; cases he
    · rw [h1] at he; cases he
    · rw [h2] at he; cases he
  obtain ⟨e, he⟩ := hl
  exact ⟨e, by simp [base, h, he]⟩

/-- An import that is interrupted while the files are written, at any point, leaves files with which every later
`import simim` raises, however often it is tried: nothing is ever written again. -/
theorem C109_interrupted_fails (dir : Path) (t : Tables K) (d : Disk)
    (h : ∀ n ∈ ["sfr.npy", "stellarmass.npy", "mass_axis.npy", "redshift_axis.npy"], d (file dir n) = none) (k : ℕ)
    (h1 : 1 ≤ k) (h2 : k < 8) (d' : Disk)
    (hl : Later (fun s => s = writes (some dir) (.ok t)) (interrupted (writes (some dir) (.ok t)) k d) d') :
    d' = interrupted (writes (some dir) (.ok t)) k d ∧ ∃ e, base (some dir) (.ok t) d' = .error e := by
  have hw : writes (some dir) (.ok t) d = saves dir := by
    simp [writes, h "sfr.npy" (by simp)]
  obtain ⟨d1, hd1⟩ : ∃ d1, d1 = interrupted (writes (some dir) (.ok t)) k d := ⟨_, rfl⟩
  have ne : ∀ a b : String, a ≠ b → file dir a ≠ file dir b := fun a b hab e => hab (file_inj dir a b e)
  have n1 := ne "redshift_axis.npy" "sfr.npy" (by decide)
  have n2 := ne "redshift_axis.npy" "stellarmass.npy" (by decide)
  have n3 := ne "redshift_axis.npy" "mass_axis.npy" (by decide)
  have n4 := ne "sfr.npy" "stellarmass.npy" (by decide)
  have n5 := ne "sfr.npy" "mass_axis.npy" (by decide)
  have hs : (d1 (file dir "sfr.npy")).isSome ∧ d1 (file dir "redshift_axis.npy") ≠ some .whole := by
    rw [hd1]
    unfold interrupted
    rw [hw]
    have hr := h "redshift_axis.npy" (by simp)
    interval_cases k <;>
      simp [saves, fetch, after, Step.apply, n1, n2, n3, n4, n5, n1.symm, hr]
  have stuck := base_stuck dir (.ok t) d1 hs.1 "redshift_axis.npy" (by simp) hs.2
  rw [← hd1] at hl ⊢
  have same : d' = d1 := by
    clear hd1 hs
    induction hl with
    | same => rfl
    | call d2 steps k' hc _ ih =>
      subst hc
      rw [ih]
      unfold interrupted
      rw [stuck.1]
      simp [after]
  rw [same]
  exact ⟨rfl, stuck.2⟩

/-- Interrupted before the first file is opened, or after the last one is complete: the next import succeeds. -/
theorem C109_interrupted_partial (dir : Path) (t : Tables K) (ht : splines t = .ok t) (d : Disk)
    (h : d (file dir "sfr.npy") = none) (k : ℕ) (hk : k = 0 ∨ 8 ≤ k) :
    base (some dir) (.ok t) (interrupted (writes (some dir) (.ok t)) k d) = .ok (some t) := by
  have hw : writes (some dir) (.ok t) d = saves dir := by
    simp [writes, h]
  rcases hk with rfl | hk
  · exact (C109_first dir t ht d h).1
  · have : interrupted (writes (some dir) (.ok t)) k d = after d (writes (some dir) (.ok t) d) := by
      unfold interrupted
      rw [List.take_of_length_le]
      rw [hw]
      exact hk
    rw [this]
    exact (C109_first dir t ht d h).2.2

/-- C109 in full for the files: whenever the first import is interrupted, the next one succeeds. -/
def C109_full : Prop :=
  ∀ (dir : Path) (t : Tables ℚ), splines t = .ok t → ∀ k : ℕ,
    base (some dir) (.ok t) (interrupted (writes (some dir) (.ok t)) k (fun _ => none)) = .ok (some t)

theorem C109_full_false : ¬ C109_full := by
  intro h
  have h1 := h [] ⟨[0, 1], [0, 1], [[1, 1], [1, 1]], [[1, 1], [1, 1]]⟩ (by decide +kernel) 1
  obtain ⟨e, he⟩ := (C109_interrupted_fails (K := ℚ) [] ⟨[0, 1], [0, 1], [[1, 1], [1, 1]], [[1, 1], [1, 1]]⟩
    (fun _ => none) (fun _ _ => rfl) 1 (by decide) (by decide) _ (Later.same _)).2
  rw [he] at h1
  cases h1

/-! ## Examples -/

/-- Two redshifts and three masses; at redshift 1 no star formation rate for the heaviest halos. -/
def exData : List (Row ℚ) :=
  [⟨1, 10, -1, 8⟩, ⟨1, 11, 0, 9⟩, ⟨1, 12, 1, 10⟩, ⟨2, 10, 0, 8⟩, ⟨2, 11, 2, 9⟩, ⟨2, 12, -1000, 11⟩]

theorem exUsable : Usable exData := by
  refine ⟨⟨by decide +kernel, by decide +kernel⟩, by decide +kernel, by decide +kernel, ?_⟩
  have : ∀ r ∈ exData, ∃ r' ∈ exData, r'.z = r.z ∧ missing r'.sfr = false := by decide +kernel
  intro r hr
  obtain ⟨r', h1, h2, h3⟩ := this r hr
  exact ⟨r', h1, h2, (given_iff r').2 h3⟩

/-- A strictly increasing function in place of the power of ten. -/
def exPow (x : ℚ) : ℚ := x + 2000

theorem exPow_mono : StrictMono exPow := fun _ _ h => by unfold exPow; linarith

example : make exPow exData = .ok ⟨[0, 1], [2010, 2011, 2012], [[1999, 2000, 2001], [2000, 2002, 2002]],
    [[2008, 2009, 2010], [2008, 2009, 2011]]⟩ := by decide +kernel

example : ∃ t, make exPow exData = .ok t ∧ splines t = .ok t := C109_made exPow exData exPow_mono exUsable

/-- The heaviest halo at redshift 1 gets the star formation rate of the halo before it; a halo in the middle of four
points the mean; a halo outside the value at the end. -/
example : ∃ t, make exPow exData = .ok t ∧ sfr t 1 2012 = 2002 ∧ sfr t (1 / 2) (4021 / 2) = 8001 / 4 ∧
    sfr t 7 (-3) = 2000 ∧ stellarmass t 1 (2012 + 5) = 2011 :=
  ⟨⟨[0, 1], [2010, 2011, 2012], [[1999, 2000, 2001], [2000, 2002, 2002]], [[2008, 2009, 2010], [2008, 2009, 2011]]⟩,
    by decide +kernel, by decide +kernel, by decide +kernel, by decide +kernel, by decide +kernel⟩

example : Neighbours (exData.map (fun r => r.z - 1)) 0 1 ∧ Neighbours (exData.map (fun r => exPow r.m)) 2010 2011 := by
  unfold Neighbours
  decide +kernel

/-- A combination that is missing. -/
example : make exPow exData.tail = .error .valueError := by decide +kernel

/-- A redshift without any star formation rate. -/
example : make exPow ((exData.take 3) ++ [⟨2, 10, -1000, 8⟩, ⟨2, 11, -1000, 9⟩, ⟨2, 12, -1000, 11⟩]) =
    .error .indexError := by decide +kernel

end Verif.Beh
