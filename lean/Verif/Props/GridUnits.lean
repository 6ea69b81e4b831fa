import Verif.Lemmas.GridUnits
import Verif.Model.Observe

/-!
# C128: units of rescaled axes
-/

set_option linter.unusedSectionVars false

namespace Verif.Map

open Verif.Sim (Err)
open Spec

variable {K V : Type} [Field K] [LinearOrder K] [IsStrictOrderedRing K] [FloorRing K]

/-- The property: when axes are rescaled (in a way that C61 shows to work) and units are given, they are the units
of the axes afterwards, and their inverses those of the Fourier axes. -/
def C128_full (K V : Type) [Field K] [LinearOrder K] [FloorRing K] : Prop :=
  ∀ (nProps : ℕ) (center side pix : NArr K) (axunits gridunits : Option (List (Option String))) (x : UGrid K V)
    (ax : List ℕ) (factor : List K) (arg : UnitArg),
    UGrid.new nProps center side pix axunits gridunits = .ok x → ax.Nodup → (∀ i ∈ ax, i < x.g.dim) →
    factor.length = ax.length → (∀ f ∈ factor, 0 < f) →
    (∀ (j i : ℕ), ax[j]? = some i → factor[i]? = factor[j]?) → RightNumber arg ax →
    ∃ x', x.scaleAxis ax factor arg = (x', .ok ()) ∧ Relabelled x.g x'.g arg ax

/-- The factors are found. -/
theorem factors_found (ax : List ℕ) (factor : List K) (hlen : factor.length = ax.length)
    (hal : ∀ (j i : ℕ), ax[j]? = some i → factor[i]? = factor[j]?) :
    scaleSpread factor ax.length = .ok factor ∧ ∀ i ∈ ax, ∃ f, factor[i]? = some f := by
  constructor
  · unfold scaleSpread
    by_cases h : factor.length = 1
    · rw [if_pos h]
      obtain ⟨f, rfl⟩ := List.length_eq_one_iff.1 h
      rw [← hlen]
      rfl
    · rw [if_neg h, if_pos hlen]
  · intro i hi
    obtain ⟨j, hj⟩ := List.getElem?_of_mem hi
    have hjl := (List.getElem?_eq_some_iff.1 hj).1
    exact ⟨factor[j]'(by omega), (hal j i hj).trans (List.getElem?_eq_getElem (by omega))⟩

/-- What a call leaves in the arrays of units, whenever the units can be taken. -/
theorem C128_stored (x : UGrid K V) (hl : HasLabels x.g) (ax : List ℕ) (factor : List K) (arg : UnitArg)
    (hax : ∀ i ∈ ax, i < x.g.dim) (hsp : scaleSpread factor ax.length = .ok factor)
    (hf : ∀ i ∈ ax, ∃ f, factor[i]? = some f) (ht : ∀ i ∈ ax, Takes arg ax.length i) :
    ∃ x', x.scaleAxis ax factor arg = (x', .ok ()) ∧
      (∃ g', x.g.scaleAxis ax factor = (g', .ok ()) ∧
        x'.g = { g' with axunits := x'.g.axunits, faxunits := x'.g.faxunits }) ∧
      (∀ j, j < x.g.dim → x'.g.axunits[j]? = if j ∈ ax then
        (match storedFor arg j with
          | none => x.g.axunits[j]?
          | some u => some (storeUnit x.width u)) else x.g.axunits[j]?) ∧
      (∀ j, j < x.g.dim → x'.g.faxunits[j]? = if j ∈ ax then
        (match storedFor arg j with
          | none => x.g.faxunits[j]?
          | some u => some (storeUnit x.fwidth (inverse u))) else x.g.faxunits[j]?) ∧
      x'.g.axunits.length = x.g.dim ∧ x'.g.faxunits.length = x.g.dim := by
  obtain ⟨a', l', b1, b2, b3, b4, b5, b6⟩ := scaleLoopU_ok factor arg ax.length ax hf ht x x.g x.g.axunits
    x.g.faxunits rfl
  have hno : ¬ ∃ a ∈ ax, x.g.dim ≤ a := by rintro ⟨a, h1, h2⟩; exact absurd (hax a h1) (by omega)
  refine ⟨⟨(scaleLoop factor true ax x.g).1.withUnits a' l', x.width, x.fwidth⟩, ?_,
    ⟨(scaleLoop factor true ax x.g).1, ?_, rfl⟩, ?_, ?_, ?_, ?_⟩
  · unfold UGrid.scaleAxis
    rw [if_neg hno, hsp]
    exact b1
  · unfold Grid.scaleAxis
    rw [if_neg hno, hsp]
    exact Prod.ext rfl b2
  · intro j hj
    exact b5 j (by rw [hl.real]; exact hj)
  · intro j hj
    exact b6 j (by rw [hl.fourier]; exact hj)
  · exact b3.trans hl.real
  · exact b4.trans hl.fourier

theorem asks_mem {arg : UnitArg} {ax : List ℕ} {i : ℕ} {u : Option String} (h : Asks arg ax i u) : i ∈ ax := by
  cases h with
  | none h => exact h
  | text h => exact h
  | many h _ => exact List.mem_of_getElem? h

/-- **C128**, where there is room for the units, and lists of units have the one for axis `i` at position `i`: the
grid is rescaled as without units (C61) and has the units that were asked for. -/
theorem C128_units_partial (x : UGrid K V) (hl : HasLabels x.g) (ax : List ℕ) (factor : List K) (arg : UnitArg)
    (hax : ∀ i ∈ ax, i < x.g.dim) (hlen : factor.length = ax.length)
    (hal : ∀ (j i : ℕ), ax[j]? = some i → factor[i]? = factor[j]?) (hn : RightNumber arg ax)
    (hu : ∀ (j i : ℕ) u v rest, arg = .many u v rest → ax[j]? = some i →
      (u :: v :: rest)[i]? = (u :: v :: rest)[j]?)
    (ht : ∀ u v rest, arg = .many u v rest → ∀ t ∈ u :: v :: rest, t ≠ none)
    (hr : ∀ i u, Asks arg ax i u → HasRoom x.width u ∧ HasRoom x.fwidth (inverse u)) :
    ∃ x', x.scaleAxis ax factor arg = (x', .ok ()) ∧ Relabelled x.g x'.g arg ax ∧
      ∃ g', x.g.scaleAxis ax factor = (g', .ok ()) ∧
        x'.g = { g' with axunits := x'.g.axunits, faxunits := x'.g.faxunits } := by
  obtain ⟨hsp, hf⟩ := factors_found ax factor hlen hal
  have hask : ∀ i ∈ ax, ∀ u, storedFor arg i = some u → Asks arg ax i u := by
    intro i hi u h
    match arg, h with
    | .none, h => simp only [storedFor, Option.some.injEq] at h; subst h; exact .none hi
    | .text t, h => simp only [storedFor, Option.some.injEq] at h; subst h; exact .text hi
    | .many a b rest, h =>
      obtain ⟨j, hj⟩ := List.getElem?_of_mem hi
      exact .many hj ((hu j i a b rest rfl hj).symm.trans h)
  have hask2 : ∀ i u, Asks arg ax i u → storedFor arg i = some u := by
    intro i u h
    cases h with
    | none h => rfl
    | text h => rfl
    | many h h2 => exact (hu _ _ _ _ _ rfl h).trans h2
  have hT : ∀ i ∈ ax, Takes arg ax.length i := by
    intro i hi
    match arg with
    | .none => trivial
    | .same => trivial
    | .text t => trivial
    | .many a b rest =>
      refine ⟨hn, ?_⟩
      obtain ⟨j, hj⟩ := List.getElem?_of_mem hi
      have hjl := (List.getElem?_eq_some_iff.1 hj).1
      have hl2 : j < (a :: b :: rest).length := by
        have : rest.length + 2 = ax.length := hn
        simp only [List.length_cons]; omega
      have h1 := hu j i a b rest rfl hj
      rw [List.getElem?_eq_getElem hl2] at h1
      have h2 := ht a b rest rfl _ (List.getElem_mem hl2)
      obtain ⟨t, h3⟩ := Option.ne_none_iff_exists'.1 h2
      exact ⟨t, by rw [h1, h3]⟩
  obtain ⟨x', c1, c2, c3, c4, c5, c6⟩ := C128_stored x hl ax factor arg hax hsp hf hT
  refine ⟨x', c1, ⟨?_, ?_, ?_, ?_⟩, c2⟩
  · intro i u h
    have hi := asks_mem h
    rw [c3 i (hax i hi), if_pos hi, hask2 i u h]
    simp only [storeUnit_room _ _ (hr i u h).1]
  · intro i u h
    have hi := asks_mem h
    rw [c4 i (hax i hi), if_pos hi, hask2 i u h]
    simp only [storeUnit_room _ _ (hr i u h).2]
  · intro i h
    by_cases hd : i < x.g.dim
    · rw [c3 i hd]
      by_cases hi : i ∈ ax
      · rw [if_pos hi]
        rcases hs : storedFor arg i with - | u
        · rfl
        · exact absurd (hask i hi u hs) (h u)
      · rw [if_neg hi]
    · rw [List.getElem?_eq_none (by omega), List.getElem?_eq_none (by rw [hl.real]; omega)]
  · intro i h
    by_cases hd : i < x.g.dim
    · rw [c4 i hd]
      by_cases hi : i ∈ ax
      · rw [if_pos hi]
        rcases hs : storedFor arg i with - | u
        · rfl
        · exact absurd (hask i hi u hs) (h u)
      · rw [if_neg hi]
    · rw [List.getElem?_eq_none (by omega), List.getElem?_eq_none (by rw [hl.fourier]; omega)]

/-- **C128**, one unit: the axes get it just if both arrays have room for it. -/
theorem C128_iff (x : UGrid K V) (hl : HasLabels x.g) (ax : List ℕ) (factor : List K) (u : String) (hne : ax ≠ [])
    (hax : ∀ i ∈ ax, i < x.g.dim) (hlen : factor.length = ax.length)
    (hal : ∀ (j i : ℕ), ax[j]? = some i → factor[i]? = factor[j]?) :
    ∃ x', x.scaleAxis ax factor (.text u) = (x', .ok ()) ∧
      (Relabelled x.g x'.g (.text u) ax ↔ HasRoom x.width (some u) ∧ HasRoom x.fwidth (some (u ++ "^-1"))) := by
  obtain ⟨hsp, hf⟩ := factors_found ax factor hlen hal
  obtain ⟨x', c1, c2, c3, c4, c5, c6⟩ := C128_stored x hl ax factor (.text u) hax hsp hf (fun _ _ => trivial)
  refine ⟨x', c1, fun h => ?_, fun h => ?_⟩
  · obtain ⟨i, hi⟩ := List.exists_mem_of_ne_nil ax hne
    have h1 := h.real i (some u) (.text hi)
    have h2 := h.fourier i (some u) (.text hi)
    rw [c3 i (hax i hi), if_pos hi] at h1
    rw [c4 i (hax i hi), if_pos hi] at h2
    simp only [storedFor, Option.some.injEq] at h1 h2
    exact ⟨(storeUnit_iff _ _).1 h1, (storeUnit_iff _ _).1 h2⟩
  · obtain ⟨x'', d1, d2, -⟩ := C128_units_partial x hl ax factor (.text u) hax hlen hal trivial
      (fun _ _ _ _ _ h => by simp at h) (fun _ _ _ h => by simp at h) (by
        intro i t ht
        cases ht with
        | text _ => exact h)
    rw [c1] at d1
    simp only [Prod.mk.injEq, and_true] at d1
    rw [d1]; exact d2

theorem new_labels (nProps : ℕ) (center side pix : NArr K) (axunits gridunits : Option (List (Option String)))
    (x : UGrid K V) (h : UGrid.new nProps center side pix axunits gridunits = .ok x) :
    HasLabels x.g ∧ x.g.dim = center.vals.length ∧ spreadUnits axunits center.vals.length = .ok x.g.axunits ∧
      x.g.faxunits = x.g.axunits.map inverse ∧ x.width = widthOf x.g.axunits ∧ x.fwidth = widthOf x.g.faxunits := by
  unfold UGrid.new at h
  rcases hg : (Grid.new nProps center side pix axunits gridunits : Except Err (Grid K V)) with e | g
  · rw [hg] at h; simp at h
  · rw [hg] at h
    simp only [Except.ok.injEq] at h
    subst h
    unfold Grid.new at hg
    simp only at hg
    split at hg
    · simp at hg
    · split at hg
      · simp at hg
      · split at hg
        · simp at hg
        · rename_i au hau
          split at hg
          · simp at hg
          · split at hg
            · simp at hg
            · split at hg
              · simp at hg
              · simp only [Except.ok.injEq] at hg
                subst hg
                have hlen : au.length = center.vals.length := by
                  unfold spreadUnits at hau
                  split at hau
                  · simp only [Except.ok.injEq] at hau; subst hau; simp
                  · simp only [Except.ok.injEq] at hau; subst hau; simp
                  · split at hau
                    · simp only [Except.ok.injEq] at hau; subst hau; assumption
                    · simp at hau
                refine ⟨⟨hlen, ?_⟩, rfl, hau, rfl, rfl, rfl⟩
                simpa [Grid.dim] using hlen

/-- **C128**: grids made without units take any. -/
theorem C128_without (nProps : ℕ) (center side pix : NArr K) (gridunits : Option (List (Option String)))
    (x : UGrid K V) (h : UGrid.new nProps center side pix none gridunits = .ok x) (h0 : 0 < x.g.dim) :
    HasLabels x.g ∧ ∀ u : Option String, HasRoom x.width u ∧ HasRoom x.fwidth (inverse u) := by
  obtain ⟨h1, h2, h3, h4, h5, h6⟩ := new_labels nProps center side pix none gridunits x h
  refine ⟨h1, fun u => ?_⟩
  simp only [spreadUnits, Except.ok.injEq] at h3
  have hn : none ∈ x.g.axunits := by
    rw [← h3, List.mem_replicate]; exact ⟨by omega, rfl⟩
  have hn2 : none ∈ x.g.faxunits := by
    rw [h4]; exact List.mem_map.2 ⟨none, hn, rfl⟩
  rw [h5, h6, widthOf_none _ hn, widthOf_none _ hn2]
  exact ⟨trivial, trivial⟩

theorem inverse_length (s : String) : (s ++ "^-1").length = s.length + 3 := by
  rw [String.length_append]; rfl

/-- **C128**: grids take units that are no longer than one of those they were made with. -/
theorem C128_shorter (nProps : ℕ) (center side pix : NArr K) (axunits gridunits : Option (List (Option String)))
    (x : UGrid K V) (h : UGrid.new nProps center side pix axunits gridunits = .ok x) (s u : String)
    (hs : some s ∈ x.g.axunits) (hu : u.length ≤ s.length) :
    HasLabels x.g ∧ HasRoom x.width (some u) ∧ HasRoom x.fwidth (inverse (some u)) := by
  obtain ⟨h1, h2, h3, h4, h5, h6⟩ := new_labels nProps center side pix axunits gridunits x h
  refine ⟨h1, ?_, ?_⟩
  · rw [h5]; exact widthOf_room _ s u hs hu
  · rw [h6, h4]
    refine widthOf_room _ (s ++ "^-1") (u ++ "^-1") (List.mem_map.2 ⟨some s, hs, rfl⟩) ?_
    rw [inverse_length, inverse_length]; omega

/-- Where it fails: a unit that is longer than all those the grid was made with is cut off (real and Fourier axes),
on every axis given, without a message.  The axes are rescaled all the same. -/
theorem C128_cut (nProps : ℕ) (center side pix : NArr K) (axunits gridunits : Option (List (Option String)))
    (x : UGrid K V) (h : UGrid.new nProps center side pix axunits gridunits = .ok x) (u : String)
    (hs : ∀ t ∈ x.g.axunits, ∃ s, t = some s ∧ s.length < u.length) (h1 : 1 < u.length)
    (ax : List ℕ) (factor : List K) (hax : ∀ i ∈ ax, i < x.g.dim) (hlen : factor.length = ax.length)
    (hal : ∀ (j i : ℕ), ax[j]? = some i → factor[i]? = factor[j]?) :
    ∃ x', x.scaleAxis ax factor (.text u) = (x', .ok ()) ∧
      (∃ g', x.g.scaleAxis ax factor = (g', .ok ()) ∧
        x'.g = { g' with axunits := x'.g.axunits, faxunits := x'.g.faxunits }) ∧
      ∃ v : String, v.length < u.length ∧ v.toList <+: u.toList ∧ (∀ i ∈ ax, x'.g.axunits[i]? = some (some v)) ∧
      ∃ v' : String, v'.length < u.length + 3 ∧ ∀ i ∈ ax, x'.g.faxunits[i]? = some (some v') := by
  obtain ⟨k1, k2, k3, k4, k5, k6⟩ := new_labels nProps center side pix axunits gridunits x h
  obtain ⟨hsp, hf⟩ := factors_found ax factor hlen hal
  obtain ⟨x', c1, c2, c3, c4, c5, c6⟩ := C128_stored x k1 ax factor (.text u) hax hsp hf (fun _ _ => trivial)
  obtain ⟨w, hw, hwl⟩ := widthOf_small x.g.axunits u.length h1 hs
  obtain ⟨w', hw', hwl'⟩ := widthOf_small x.g.faxunits (u.length + 3) (by omega) (by
    intro t ht
    rw [k4] at ht
    obtain ⟨t', ht', rfl⟩ := List.mem_map.1 ht
    obtain ⟨s, rfl, hl⟩ := hs t' ht'
    exact ⟨s ++ "^-1", rfl, by rw [inverse_length]; omega⟩)
  rw [← k5] at hw
  rw [← k6] at hw'
  refine ⟨x', c1, c2, String.ofList (u.toList.take w), ?_, ?_, ?_, String.ofList ((u ++ "^-1").toList.take w'), ?_, ?_⟩
  · rw [← String.length_toList, String.toList_ofList, List.length_take]; omega
  · rw [String.toList_ofList]; exact List.take_prefix _ _
  · intro i hi
    rw [c3 i (hax i hi), if_pos hi, hw]
    rfl
  · rw [← String.length_toList, String.toList_ofList, List.length_take]; omega
  · intro i hi
    rw [c4 i (hax i hi), if_pos hi, hw']
    rfl

/-- Where it fails: on a grid with units on all axes, no axis can be left without one; `None` becomes a text. -/
theorem C128_none_kept (nProps : ℕ) (center side pix : NArr K) (axunits gridunits : Option (List (Option String)))
    (x : UGrid K V) (h : UGrid.new nProps center side pix axunits gridunits = .ok x) (hs : none ∉ x.g.axunits)
    (ax : List ℕ) (factor : List K) (hax : ∀ i ∈ ax, i < x.g.dim) (hlen : factor.length = ax.length)
    (hal : ∀ (j i : ℕ), ax[j]? = some i → factor[i]? = factor[j]?) :
    ∃ x', x.scaleAxis ax factor .none = (x', .ok ()) ∧
      ∃ v : String, v.toList <+: "None".toList ∧ v ≠ "" ∧ ∀ i ∈ ax, x'.g.axunits[i]? = some (some v) := by
  obtain ⟨k1, k2, k3, k4, k5, k6⟩ := new_labels nProps center side pix axunits gridunits x h
  obtain ⟨hsp, hf⟩ := factors_found ax factor hlen hal
  obtain ⟨x', c1, c2, c3, c4, c5, c6⟩ := C128_stored x k1 ax factor .none hax hsp hf (fun _ _ => trivial)
  obtain ⟨w, hw, hw1⟩ : ∃ w, x.width = some w ∧ 1 ≤ w := by
    rw [k5]; unfold widthOf
    rw [if_pos]
    · exact ⟨_, rfl, (foldl_max_le _ 1).1⟩
    · rw [List.all_eq_true]
      intro u hu
      match u, hu with
      | none, hu => exact absurd hu hs
      | some s, _ => rfl
  refine ⟨x', c1, String.ofList ("None".toList.take w), ?_, ?_, ?_⟩
  · rw [String.toList_ofList]; exact List.take_prefix _ _
  · intro c
    have := congrArg String.length c
    rw [← String.length_toList, String.toList_ofList, List.length_take] at this
    have h4 : "None".toList.length = 4 := rfl
    rw [h4] at this
    simp only [String.length_empty] at this
    omega
  · intro i hi
    rw [c3 i (hax i hi), if_pos hi, hw]
    rfl

/-- Where it fails: whatever calls follow each other on a grid that was made with units on all axes, every axis
always has a unit, never longer than the longest at the beginning. -/
theorem C128_never_longer (nProps : ℕ) (center side pix : NArr K) (axunits gridunits : Option (List (Option String)))
    (x : UGrid K V) (h : UGrid.new nProps center side pix axunits gridunits = .ok x) (b : ℕ) (h1 : 1 ≤ b)
    (hs : ∀ t ∈ x.g.axunits, ∃ s, t = some s ∧ s.length ≤ b) (calls : List (ScaleCall K)) :
    ∀ t ∈ (scaleAll calls x).g.axunits, ∃ s, t = some s ∧ s.length ≤ b := by
  obtain ⟨k1, k2, k3, k4, k5, k6⟩ := new_labels nProps center side pix axunits gridunits x h
  obtain ⟨w, hw, hwl⟩ := widthOf_small x.g.axunits (b + 1) (by omega) (fun t ht => by
    obtain ⟨s, h2, h3⟩ := hs t ht
    exact ⟨s, h2, by omega⟩)
  have hsd := (scaleAll_sound calls x).2.2.1 (by rw [k5]; exact widthOf_short _)
  intro t ht
  obtain ⟨s, h2, h3⟩ := hsd w (by rw [k5]; exact hw) t ht
  exact ⟨s, h2, by omega⟩

/-- Where it fails: two axes in reverse order get each other's units. -/
theorem C128_swapped (x : UGrid K V) (hl : HasLabels x.g) (hd : 2 ≤ x.g.dim) (f : K) (u v : String)
    (hu : HasRoom x.width (some u) ∧ HasRoom x.width (some v)) :
    ∃ x', x.scaleAxis [1, 0] [f, f] (.many (some u) (some v) []) = (x', .ok ()) ∧
      x'.g.axunits[1]? = some (some v) ∧ x'.g.axunits[0]? = some (some u) := by
  obtain ⟨x', c1, c2, c3, c4, c5, c6⟩ := C128_stored x hl [1, 0] [f, f] (.many (some u) (some v) [])
    (by simp; omega) (by simp [scaleSpread])
    (by
      intro i hi
      simp only [List.mem_cons, List.not_mem_nil, or_false] at hi
      rcases hi with rfl | rfl <;> exact ⟨f, rfl⟩)
    (by
      intro i hi
      simp only [List.mem_cons, List.not_mem_nil, or_false] at hi
      rcases hi with rfl | rfl
      · exact ⟨rfl, v, rfl⟩
      · exact ⟨rfl, u, rfl⟩)
  refine ⟨x', c1, ?_, ?_⟩
  · rw [c3 1 (by omega), if_pos (by simp)]
    simp only [storedFor, List.getElem?_cons_succ, List.getElem?_cons_zero, storeUnit_room _ _ hu.2]
  · rw [c3 0 (by omega), if_pos (by simp)]
    simp only [storedFor, List.getElem?_cons_zero, storeUnit_room _ _ hu.1]

/-- Without new units the call is that of C61. -/
theorem C128_same (x : UGrid K V) (ax : List ℕ) (factor : List K) (sc : Bool) :
    x.scaleAxis ax factor .same sc =
      (⟨(x.g.scaleAxis ax factor sc).1, x.width, x.fwidth⟩, (x.g.scaleAxis ax factor sc).2) := by
  have h1 : ∀ (fs : List K) (k i : ℕ) (y : UGrid K V), scaleOneU y fs .same k sc i =
      (⟨(scaleOne y.g fs sc i).1, y.width, y.fwidth⟩, (scaleOne y.g fs sc i).2) := by
    intro fs k i y
    unfold scaleOneU scaleOne
    rcases fs[i]? with - | f
    · rfl
    · simp only [setUnits]
      cases sc <;> rfl
  have h2 : ∀ (fs : List K) (k : ℕ) (l : List ℕ) (y : UGrid K V), scaleLoopU fs .same k sc l y =
      (⟨(scaleLoop fs sc l y.g).1, y.width, y.fwidth⟩, (scaleLoop fs sc l y.g).2) := by
    intro fs k l
    induction l with
    | nil => intro y; rfl
    | cons i rest ih =>
      intro y
      unfold scaleLoopU scaleLoop
      rw [h1]
      rcases scaleOne y.g fs sc i with ⟨g', e | u⟩
      · rfl
      · exact ih _
  unfold UGrid.scaleAxis Grid.scaleAxis
  split
  · rfl
  · rcases scaleSpread factor ax.length with e | fs
    · rfl
    · exact h2 fs _ ax x

end Verif.Map

namespace Verif.Inst

open Verif.Map (Grid Arr UGrid NArr)

/-- A grid whose first axis has another unit than the instrument is refused. -/
theorem unit_refused {F D O X G M K : Type} [LinearOrder K] (s : State F D O X G M K) (a : FieldArgs X G K)
    (hc : a.check = true) (u v : String) (hs : s.spatialUnit = some u)
    (hv : a.grid.axunits[0]? = some (some v)) (hne : v ≠ u) :
    ∃ e, addField s a = (s, .error e) := by
  have hcomp : ∃ e, compatible s a.grid (a.idx.getD 0).toNat = .error e := by
    unfold compatible
    split
    · exact ⟨_, rfl⟩
    · split
      · exact ⟨_, rfl⟩
      · split
        · exact ⟨_, rfl⟩
        · have : checkAxis knownSpatial (a.grid.axunits[0]?).join s.spatialUnit = .error .value := by
            rw [hv, hs]
            simp only [Option.join_some, checkAxis, if_neg hne]
            split <;> rfl
          rw [this]
          exact ⟨_, rfl⟩
  obtain ⟨e, he⟩ := hcomp
  unfold addField
  simp only [hc, if_true, he]
  split
  · exact ⟨_, rfl⟩
  · exact ⟨_, rfl⟩

/-- **C128**, why it matters: a map made with units on all axes, converted to the longer unit `u` of an instrument
in the way `scale_axis` offers it, is refused by the instrument. -/
theorem C128_refused {F D O M K : Type} [_root_.Field K] [LinearOrder K] [IsStrictOrderedRing K] [FloorRing K]
    (nProps : ℕ) (center side pix : NArr K) (axunits gridunits : Option (List (Option String)))
    (x : UGrid K K) (h : UGrid.new nProps center side pix axunits gridunits = .ok x) (u : String)
    (hs : ∀ t ∈ x.g.axunits, ∃ s, t = some s ∧ s.length < u.length) (h1 : 1 < u.length) (hd : 2 ≤ x.g.dim) (f : K)
    (s : State F D O (Grid K K) (Arr K) M K) (hu : s.spatialUnit = some u) :
    ∃ x', x.scaleAxis [0, 1] [f, f] (.text u) = (x', .ok ()) ∧
      ∀ (a : FieldArgs (Grid K K) (Arr K) K) (data : Arr K), a.check = true → a.grid = asField x'.g data →
        ∃ e, addField s a = (s, .error e) := by
  obtain ⟨x', c1, -, v, c2, -, c3, -⟩ := Map.C128_cut nProps center side pix axunits gridunits x h u hs h1 [0, 1]
    [f, f] (by simp; omega) rfl (by
      intro j i hj
      match j, hj with
      | 0, hj => simp at hj; subst hj; rfl
      | 1, hj => simp at hj; subst hj; rfl
      | n + 2, hj => simp at hj)
  refine ⟨x', c1, fun a data hc hg => ?_⟩
  refine unit_refused s a hc u v hu ?_ (by rintro rfl; omega)
  rw [hg]
  exact c3 0 (by simp)

end Verif.Inst

namespace Verif.Map

/-- A map in radians and Hz, and a grid in metres. -/
def radMap : Except Sim.Err (UGrid ℚ ℚ) :=
  UGrid.new 1 ⟨false, [0, 0, 5]⟩ ⟨false, [10, 10, 10]⟩ ⟨false, [1, 1, 1]⟩
    (some [some "rad", some "rad", some "Hz"]) none

/-- A grid in metres. -/
def metreGrid : Except Sim.Err (UGrid ℚ ℚ) :=
  UGrid.new 1 ⟨false, [0, 0]⟩ ⟨false, [10, 10]⟩ ⟨false, [1, 1]⟩ (some [some "m"]) none

/-- The hypotheses of `C128_refused` are met; the units are then 'arc' and, along Fourier axes, 'arcmin'. -/
example : (match radMap with
    | .error _ => false
    | .ok x =>
      decide (x.g.axunits = [some "rad", some "rad", some "Hz"] ∧
        (x.scaleAxis [0, 1] [3438, 3438] (.text "arcmin")).1.g.axunits = [some "arc", some "arc", some "Hz"] ∧
        (x.scaleAxis [0, 1] [3438, 3438] (.text "arcmin")).1.g.faxunits =
          [some "arcmin", some "arcmin", some "Hz^-1"] ∧
        (x.scaleAxis [0, 1] [57, 57] (.text "deg")).1.g.axunits = [some "deg", some "deg", some "Hz"] ∧
        (x.scaleAxis [0, 1] [57, 57] (.text "deg")).1.g.faxunits = [some "deg^-1", some "deg^-1", some "Hz^-1"] ∧
        (x.scaleAxis [0] [57] .none).1.g.axunits = [some "Non", some "rad", some "Hz"])) = true := by
  decide +kernel

/-- A grid in metres that is converted to millimetres is still in metres: the numbers change, the unit does not. -/
example : (match metreGrid with
    | .error _ => false
    | .ok x =>
      decide ((x.scaleAxis [0, 1] [1000, 1000] (.text "mm")).1.g.axunits = [some "m", some "m"] ∧
        (x.scaleAxis [0, 1] [1000, 1000] (.text "mm")).1.g.pix.vals = [1000, 1000])) = true := by
  decide +kernel

theorem C128_full_false : ¬ C128_full ℚ ℚ := by
  intro h
  have key : ∃ x, metreGrid = .ok x ∧ x.g.dim = 2 ∧
      (x.scaleAxis [0, 1] [1000, 1000] (.text "mm")).1.g.axunits[0]? = some (some "m") := by
    have hk : (match metreGrid with
      | .error _ => false
      | .ok x => decide (x.g.dim = 2 ∧
          (x.scaleAxis [0, 1] [1000, 1000] (.text "mm")).1.g.axunits[0]? = some (some "m"))) = true := by
      decide +kernel
    rcases hm : metreGrid with e | x
    · rw [hm] at hk; simp at hk
    · rw [hm] at hk
      exact ⟨x, rfl, of_decide_eq_true hk⟩
  obtain ⟨x, hx, hd, h0⟩ := key
  obtain ⟨x', h1, h2⟩ := h _ _ _ _ _ _ x [0, 1] [1000, 1000] (.text "mm") hx (by simp) (by simp [hd]) rfl
    (by intro f hf; simp at hf; rw [hf]; decide +kernel)
    (by
      intro j i hj
      match j, hj with
      | 0, hj => simp at hj; subst hj; rfl
      | 1, hj => simp at hj; subst hj; rfl
      | n + 2, hj => simp at hj) trivial
  have h3 := h2.real 0 (some "mm") (.text (by simp))
  rw [h1] at h0
  simp only at h0
  rw [h0] at h3
  exact absurd h3 (by decide)

end Verif.Map
