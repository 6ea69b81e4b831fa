import Verif.Spec.GridUnits
import Verif.Props.GridScale

/-!
# Lemmas for C128
-/

set_option linter.unusedSectionVars false

namespace Verif.Map

open Verif.Sim (Err)
open Spec

variable {K V : Type} [Field K] [LinearOrder K] [IsStrictOrderedRing K] [FloorRing K]

/-- A grid with other labels. -/
def Grid.withUnits (g : Grid K V) (a f : List (Option String)) : Grid K V :=
  { g with axunits := a, faxunits := f }

/-- What the call stores on axis `i`: nothing new, or a unit. -/
def storedFor (arg : UnitArg) (i : ℕ) : Option (Option String) :=
  match arg with
  | .same => none
  | .none => some none
  | .text u => some (some u)
  | .many u v rest => (u :: v :: rest)[i]?

/-- The labels after one pass. -/
def newLabels (width : Option ℕ) (arg : UnitArg) (i : ℕ) (l : List (Option String)) (inv : Bool) :
    List (Option String) :=
  match storedFor arg i with
  | none => l
  | some u => l.set i (storeUnit width (if inv then inverse u else u))

/-- The units can be taken for axis `i`. -/
def Takes (arg : UnitArg) (k i : ℕ) : Prop :=
  match arg with
  | .many u v rest => rest.length + 2 = k ∧ ∃ t : String, (u :: v :: rest)[i]? = some (some t)
  | _ => True

theorem setUnits_ok (x : UGrid K V) (arg : UnitArg) (k i : ℕ) (h : Takes arg k i) :
    setUnits x arg k i = (⟨x.g.withUnits (newLabels x.width arg i x.g.axunits false)
      (newLabels x.fwidth arg i x.g.faxunits true), x.width, x.fwidth⟩, .ok ()) := by
  match arg, h with
  | .same, _ => rfl
  | .none, _ => rfl
  | .text u, _ => rfl
  | .many u v rest, ⟨h1, t, h2⟩ =>
    unfold setUnits newLabels storedFor
    have h3 : (u :: v :: rest).length = k := by simpa using h1
    simp only [h2, if_pos h3]
    rfl

theorem scaleOneU_ok (x : UGrid K V) (g : Grid K V) (a l : List (Option String)) (hx : x.g = g.withUnits a l)
    (factor : List K) (arg : UnitArg) (k i : ℕ) (f : K) (hf : factor[i]? = some f) (h : Takes arg k i) :
    scaleOneU x factor arg k true i =
      (⟨(scaleOne g factor true i).1.withUnits (newLabels x.width arg i a false)
        (newLabels x.fwidth arg i l true), x.width, x.fwidth⟩, .ok ()) ∧
    (scaleOne g factor true i).2 = .ok () := by
  unfold scaleOneU scaleOne
  rw [hf]
  simp only [if_true, setUnits_ok _ arg k i h, and_true]
  simp only [hx, Grid.withUnits]

theorem newLabels_length (w : Option ℕ) (arg : UnitArg) (i : ℕ) (l : List (Option String)) (inv : Bool) :
    (newLabels w arg i l inv).length = l.length := by
  unfold newLabels
  split <;> simp

theorem newLabels_get (w : Option ℕ) (arg : UnitArg) (i j : ℕ) (l : List (Option String)) (inv : Bool) :
    (newLabels w arg i l inv)[j]? = if i = j ∧ j < l.length then
      (match storedFor arg j with
        | none => l[j]?
        | some u => some (storeUnit w (if inv then inverse u else u))) else l[j]? := by
  unfold newLabels
  by_cases h : i = j
  · subst h
    rcases storedFor arg i with - | u
    · simp
    · by_cases h2 : i < l.length
      · simp [h2]
      · simp [h2]
  · rw [if_neg (fun c => h c.1)]
    split
    · rfl
    · rw [List.getElem?_set_ne h]

/-- The labels after the loop. -/
theorem scaleLoopU_ok (factor : List K) (arg : UnitArg) (k : ℕ) (ax : List ℕ)
    (hf : ∀ i ∈ ax, ∃ f, factor[i]? = some f) (ht : ∀ i ∈ ax, Takes arg k i) :
    ∀ (x : UGrid K V) (g : Grid K V) (a l : List (Option String)), x.g = g.withUnits a l →
    ∃ a' l', scaleLoopU factor arg k true ax x =
        (⟨(scaleLoop factor true ax g).1.withUnits a' l', x.width, x.fwidth⟩, .ok ()) ∧
      (scaleLoop factor true ax g).2 = .ok () ∧ a'.length = a.length ∧ l'.length = l.length ∧
      (∀ j, j < a.length → a'[j]? = if j ∈ ax then
        (match storedFor arg j with
          | none => a[j]?
          | some u => some (storeUnit x.width u)) else a[j]?) ∧
      ∀ j, j < l.length → l'[j]? = if j ∈ ax then
        (match storedFor arg j with
          | none => l[j]?
          | some u => some (storeUnit x.fwidth (inverse u))) else l[j]? := by
  induction ax with
  | nil =>
    intro x g a l hx
    refine ⟨a, l, ?_, rfl, rfl, rfl, ?_, ?_⟩
    · simp only [scaleLoopU, scaleLoop, ← hx]
    · intro j _; rw [if_neg (by simp)]
    · intro j _; rw [if_neg (by simp)]
  | cons i rest ih =>
    intro x g a l hx
    obtain ⟨f, hfi⟩ := hf i (by simp)
    obtain ⟨e1, e2⟩ := scaleOneU_ok x g a l hx factor arg k i f hfi (ht i (by simp))
    obtain ⟨a', l', b1, b2, b3, b4, b5, b6⟩ := ih (fun j hj => hf j (by simp [hj]))
      (fun j hj => ht j (by simp [hj])) _ _ _ _ (rfl : UGrid.g
        (⟨(scaleOne g factor true i).1.withUnits (newLabels x.width arg i a false)
        (newLabels x.fwidth arg i l true), x.width, x.fwidth⟩ : UGrid K V) = _)
    have e3 : scaleOne g factor true i = ((scaleOne g factor true i).1, .ok ()) := Prod.ext rfl e2
    have e4 : scaleLoop factor true (i :: rest) g = scaleLoop factor true rest (scaleOne g factor true i).1 := by
      conv_lhs => unfold scaleLoop
      rw [e3]
    refine ⟨a', l', ?_, ?_, ?_, ?_, ?_, ?_⟩
    · rw [e4]
      conv_lhs => unfold scaleLoopU
      rw [e1]
      exact b1
    · rw [e4]; exact b2
    · rw [b3, newLabels_length]
    · rw [b4, newLabels_length]
    · intro j hj
      rw [b5 j (by rw [newLabels_length]; exact hj)]
      simp only [newLabels_get]
      by_cases h1 : j ∈ rest
      · have hm : j ∈ i :: rest := List.mem_cons_of_mem _ h1
        rw [if_pos h1, if_pos hm]
        rcases h3 : storedFor arg j with - | u
        · simp
        · rfl
      · rw [if_neg h1]
        by_cases h2 : i = j
        · have hm : j ∈ i :: rest := by rw [h2]; exact List.mem_cons_self
          rw [if_pos ⟨h2, hj⟩, if_pos hm]
          rfl
        · have hm : j ∉ i :: rest := by rw [List.mem_cons, not_or]; exact ⟨Ne.symm h2, h1⟩
          rw [if_neg (fun c => h2 c.1), if_neg hm]
    · intro j hj
      rw [b6 j (by rw [newLabels_length]; exact hj)]
      simp only [newLabels_get]
      by_cases h1 : j ∈ rest
      · have hm : j ∈ i :: rest := List.mem_cons_of_mem _ h1
        rw [if_pos h1, if_pos hm]
        rcases h3 : storedFor arg j with - | u
        · simp
        · rfl
      · rw [if_neg h1]
        by_cases h2 : i = j
        · have hm : j ∈ i :: rest := by rw [h2]; exact List.mem_cons_self
          rw [if_pos ⟨h2, hj⟩, if_pos hm]
          rfl
        · have hm : j ∉ i :: rest := by rw [List.mem_cons, not_or]; exact ⟨Ne.symm h2, h1⟩
          rw [if_neg (fun c => h2 c.1), if_neg hm]

/-- Labels in an array of texts are texts that are short enough. -/
def Short (width : Option ℕ) (l : List (Option String)) : Prop :=
  ∀ w, width = some w → ∀ u ∈ l, ∃ s, u = some s ∧ s.length ≤ w

theorem storeUnit_short (w : ℕ) (u : Option String) :
    ∃ s, storeUnit (some w) u = some s ∧ s.length ≤ w := by
  refine ⟨_, rfl, ?_⟩
  rw [← String.length_toList, String.toList_ofList, List.length_take]
  exact min_le_left _ _

theorem short_set (width : Option ℕ) (l : List (Option String)) (h : Short width l) (i : ℕ) (u : Option String) :
    Short width (l.set i (storeUnit width u)) := by
  intro w hw v hv
  rcases List.mem_or_eq_of_mem_set hv with h1 | h1
  · exact h w hw v h1
  · rw [h1, hw]; exact storeUnit_short w u

/-- Both arrays of labels are sound and as wide as before. -/
def Sound (x y : UGrid K V) : Prop :=
  y.width = x.width ∧ y.fwidth = x.fwidth ∧ (Short x.width x.g.axunits → Short x.width y.g.axunits) ∧
    (Short x.fwidth x.g.faxunits → Short x.fwidth y.g.faxunits)

theorem Sound.trans {x y z : UGrid K V} (h : Sound x y) (h' : Sound y z) : Sound x z := by
  obtain ⟨a1, a2, a3, a4⟩ := h
  obtain ⟨b1, b2, b3, b4⟩ := h'
  rw [a1] at b1 b3
  rw [a2] at b2 b4
  exact ⟨b1, b2, fun h => b3 (a3 h), fun h => b4 (a4 h)⟩

theorem label_sound (x : UGrid K V) (i : ℕ) (a f : Option String) : Sound x (x.label i a f) :=
  ⟨rfl, rfl, fun h => short_set _ _ h i a, fun h => short_set _ _ h i f⟩

theorem setUnits_sound (x : UGrid K V) (arg : UnitArg) (k i : ℕ) : Sound x (setUnits x arg k i).1 := by
  have h0 : Sound x x := ⟨rfl, rfl, id, id⟩
  unfold setUnits
  split
  · exact label_sound _ _ _ _
  · exact h0
  · exact label_sound _ _ _ _
  · split
    · split
      · exact h0
      · exact label_sound _ _ _ _
      · exact ⟨rfl, rfl, fun h => short_set _ _ h i _, id⟩
    · exact h0

theorem scaleOneU_sound (factor : List K) (arg : UnitArg) (k : ℕ) (sc : Bool) (i : ℕ) (x : UGrid K V) :
    Sound x (scaleOneU x factor arg k sc i).1 := by
  unfold scaleOneU
  rcases factor[i]? with - | f
  · exact ⟨rfl, rfl, id, id⟩
  · simp only
    obtain ⟨g1, hg1⟩ : ∃ g1, g1 = (if sc = true then
      ({ x.g with center := x.g.center.put i (x.g.center.vals.getD i 0 * f) } : Grid K V) else x.g) := ⟨_, rfl⟩
    rw [← hg1]
    have e1 : g1.axunits = x.g.axunits := by rw [hg1]; split <;> rfl
    have e2 : g1.faxunits = x.g.faxunits := by rw [hg1]; split <;> rfl
    have hs := setUnits_sound (⟨{ g1 with
      side := g1.side.put i (g1.side.vals.getD i 0 * f),
      pix := g1.pix.put i (g1.pix.vals.getD i 0 * f) }, x.width, x.fwidth⟩ : UGrid K V) arg k i
    have h0 : Sound x (⟨{ g1 with
      side := g1.side.put i (g1.side.vals.getD i 0 * f),
      pix := g1.pix.put i (g1.pix.vals.getD i 0 * f) }, x.width, x.fwidth⟩ : UGrid K V) :=
      ⟨rfl, rfl, fun h => by simpa only [e1] using h, fun h => by simpa only [e2] using h⟩
    have h := h0.trans hs
    rcases hr : setUnits (⟨{ g1 with
      side := g1.side.put i (g1.side.vals.getD i 0 * f),
      pix := g1.pix.put i (g1.pix.vals.getD i 0 * f) }, x.width, x.fwidth⟩ : UGrid K V) arg k i with ⟨x3, e | u⟩
    · rw [hr] at h; exact h
    · rw [hr] at h
      simp only
      split
      · exact h
      · exact h

theorem scaleLoopU_sound (factor : List K) (arg : UnitArg) (k : ℕ) (sc : Bool) (ax : List ℕ) :
    ∀ x : UGrid K V, Sound x (scaleLoopU factor arg k sc ax x).1 := by
  induction ax with
  | nil => intro x; exact ⟨rfl, rfl, id, id⟩
  | cons i rest ih =>
    intro x
    have h := scaleOneU_sound factor arg k sc i x
    unfold scaleLoopU
    rcases hr : scaleOneU x factor arg k sc i with ⟨x3, e | u⟩
    · rw [hr] at h; exact h
    · rw [hr] at h
      exact h.trans (ih x3)

theorem scaleAxisU_sound (x : UGrid K V) (ax : List ℕ) (factor : List K) (arg : UnitArg) (sc : Bool) :
    Sound x (x.scaleAxis ax factor arg sc).1 := by
  unfold UGrid.scaleAxis
  split
  · exact ⟨rfl, rfl, id, id⟩
  · split
    · exact ⟨rfl, rfl, id, id⟩
    · exact scaleLoopU_sound _ _ _ _ _ _

theorem scaleAll_sound (calls : List (ScaleCall K)) : ∀ x : UGrid K V, Sound x (scaleAll calls x) := by
  induction calls with
  | nil => intro x; exact ⟨rfl, rfl, id, id⟩
  | cons c rest ih => intro x; exact (scaleAxisU_sound x _ _ _ _).trans (ih _)

/-! ## Widths of new arrays -/

theorem foldl_max_le (l : List ℕ) : ∀ m : ℕ, m ≤ l.foldl max m ∧ ∀ n ∈ l, n ≤ l.foldl max m := by
  induction l with
  | nil => intro m; simp
  | cons a t ih =>
    intro m
    obtain ⟨h1, h2⟩ := ih (max m a)
    refine ⟨le_trans (le_max_left _ _) h1, ?_⟩
    intro n hn
    rcases List.mem_cons.1 hn with rfl | hn
    · exact le_trans (le_max_right _ _) h1
    · exact h2 n hn

theorem foldl_max_lt (l : List ℕ) : ∀ m b : ℕ, m < b → (∀ n ∈ l, n < b) → l.foldl max m < b := by
  induction l with
  | nil => intro m b h _; exact h
  | cons a t ih =>
    intro m b h hl
    exact ih (max m a) b (max_lt h (hl a (by simp))) (fun n hn => hl n (by simp [hn]))

theorem widthOf_short (l : List (Option String)) : Short (widthOf l) l := by
  intro w hw u hu
  unfold widthOf at hw
  split at hw
  · rename_i h
    simp only [Option.some.injEq] at hw
    have h1 := List.all_eq_true.1 h u hu
    obtain ⟨s, rfl⟩ := Option.isSome_iff_exists.1 h1
    refine ⟨s, rfl, ?_⟩
    rw [← hw]
    exact (foldl_max_le _ 1).2 _ (List.mem_map.2 ⟨some s, hu, rfl⟩)
  · simp at hw

theorem widthOf_room (l : List (Option String)) (s t : String) (hs : some s ∈ l) (hl : t.length ≤ s.length) :
    HasRoom (widthOf l) (some t) := by
  unfold widthOf
  split
  · exact le_trans hl ((foldl_max_le _ 1).2 _ (List.mem_map.2 ⟨some s, hs, rfl⟩))
  · trivial

theorem widthOf_none (l : List (Option String)) (h : none ∈ l) : widthOf l = none := by
  unfold widthOf
  rw [if_neg]
  intro c
  exact absurd (List.all_eq_true.1 c none h) (by simp)

theorem widthOf_small (l : List (Option String)) (b : ℕ) (h1 : 1 < b)
    (h : ∀ u ∈ l, ∃ s, u = some s ∧ s.length < b) : ∃ w, widthOf l = some w ∧ w < b := by
  unfold widthOf
  rw [if_pos]
  · refine ⟨_, rfl, foldl_max_lt _ _ _ h1 ?_⟩
    intro n hn
    obtain ⟨u, hu, rfl⟩ := List.mem_map.1 hn
    obtain ⟨s, rfl, hs⟩ := h u hu
    exact hs
  · rw [List.all_eq_true]
    intro u hu
    obtain ⟨s, rfl, -⟩ := h u hu
    rfl

theorem storeUnit_room (w : Option ℕ) (u : Option String) (h : HasRoom w u) : storeUnit w u = u := by
  match w, u, h with
  | none, _, _ => rfl
  | some w, some s, h =>
    unfold storeUnit
    simp only [Option.getD_some, Option.some.injEq]
    rw [List.take_of_length_le (by rw [String.length_toList]; exact h), String.ofList_toList]

theorem storeUnit_iff (w : Option ℕ) (u : Option String) : storeUnit w u = u ↔ HasRoom w u := by
  refine ⟨fun h => ?_, storeUnit_room w u⟩
  match w, u, h with
  | none, _, _ => trivial
  | some w, some s, h =>
    obtain ⟨t, h1, h2⟩ := storeUnit_short w (some s)
    rw [h, Option.some.injEq] at h1
    rw [h1]
    exact h2

end Verif.Map
