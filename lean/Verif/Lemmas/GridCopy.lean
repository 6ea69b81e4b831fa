import Verif.Lemmas.GridPad
import Verif.Props.GridGeometry

/-!
# Copies of a grid
-/

set_option linter.unusedSectionVars false

namespace Verif.Map

open Verif.Sim (Err)
open Spec

variable {K V : Type} [Field K] [LinearOrder K] [IsStrictOrderedRing K] [FloorRing K]

theorem spreadUnits_full (l : List (Option String)) : spreadUnits (some l) l.length = .ok l := by
  match l with
  | [] => rfl
  | [x] => rfl
  | x :: y :: l => simp [spreadUnits]

theorem spreadUnits_ok (l : List (Option String)) (n : ℕ) (h : l.length = 1 ∨ l.length = n) :
    ∃ l', spreadUnits (some l) n = .ok l' ∧ l'.length = n ∧ (l.length = n → l' = l) := by
  rcases h with h | h
  · obtain ⟨x, rfl⟩ := List.length_eq_one_iff.1 h
    refine ⟨List.replicate n x, rfl, by simp, ?_⟩
    intro e
    simp only [List.length_cons, List.length_nil, Nat.zero_add] at e
    subst e
    rfl
  · subst h
    exact ⟨l, spreadUnits_full l, rfl, fun _ => rfl⟩

theorem spreadUnits_error (l : List (Option String)) (n : ℕ) (h1 : l.length ≠ 1)
    (h2 : l.length ≠ n) : spreadUnits (some l) n = .error .valueError := by
  match l, h1, h2 with
  | [], _, h2 => simp [spreadUnits] at h2 ⊢; omega
  | [x], h1, _ => exact absurd rfl h1
  | x :: y :: l, _, h2 =>
    simp only [spreadUnits]
    rw [if_neg h2]

/-- Building a grid again from its own description gives the same axes. -/
theorem rebuild (g : Grid K V) (hg : Regular g) (hl : Labelled g) (n : ℕ)
    (gu : List (Option String)) (hgu : gu.length = 1 ∨ gu.length = n) :
    ∃ h : Grid K V, Grid.new n g.center g.side g.pix (some g.axunits) (some gu) = .ok h ∧
      Regular h ∧ SameAxes g h ∧ h.nProps = n ∧ h.nObj = 0 ∧ h.grid = none ∧
      h.gridunits.length = n ∧ (gu.length = n → h.gridunits = gu) ∧
      h.fourier = List.replicate g.dim false ∧ h.isPow = false ∧
      (2 ≤ g.dim → h.side = g.side) := by
  obtain ⟨gu', hg1, hg2, hg3⟩ := spreadUnits_ok gu n hgu
  have hau : spreadUnits (some g.axunits) g.center.vals.length = .ok g.axunits := by
    have : g.center.vals.length = g.axunits.length := hl.1.symm
    rw [this]; exact spreadUnits_full _
  obtain ⟨S, hS, hSv⟩ := spreadSide_full g.side g.center.vals.length hg.side
  have hP : spreadPix g.pix g.center.vals.length = .ok g.pix := by
    unfold spreadPix; exact if_pos hg.pix
  have hpos : ∀ w ∈ g.pix.vals, 0 < w := by
    intro w hw
    obtain ⟨i, hi⟩ := List.getElem?_of_mem hw
    have hid : i < g.dim := by rw [← hg.pix]; exact (List.getElem?_eq_some_iff.1 hi).1
    obtain ⟨n', w', c, h1, h2, h3⟩ := hg.axis i hid
    have := h3.pix
    rw [hi] at this
    simp only [Option.some.injEq] at this
    rw [this]; exact h2
  have hns : mapE (fun p : K × K => pixelCount p.1 p.2) (S.vals.zip g.pix.vals) = .ok g.nPix := by
    rw [mapE_ok_iff]
    refine ⟨by simp [hSv, hg.side, hg.pix, hg.nPix], ?_⟩
    intro i q hq
    rw [hSv, List.getElem?_zip_eq_some] at hq
    have hid : i < g.dim := by rw [← hg.pix]; exact (List.getElem?_eq_some_iff.1 hq.2).1
    obtain ⟨n', w', c, h1, h2, h3⟩ := hg.axis i hid
    refine ⟨n', h3.nPix, ?_⟩
    have e1 := h3.side
    have e2 := h3.pix
    rw [hq.1] at e1
    rw [hq.2] at e2
    simp only [Option.some.injEq] at e1 e2
    rw [e1, e2, pixelCount_ok _ _ h2]
    refine ⟨h1, ?_⟩
    rw [mul_div_assoc, div_self h2.ne', mul_one]
    constructor <;> linarith
  obtain ⟨h, b1, b2, b3, b4, b5, b6, b7, b8, b9, b10, b11, b12, b13, b14⟩ :=
    new_ok (V := V) n g.center g.side g.pix S g.pix (some g.axunits) (some gu) _ _ hS hP hau hg1
      hpos g.nPix hns
  have hdim : h.dim = g.dim := by simp [Grid.dim, b3]
  have key : ∀ {α : Type} (l l' : List α), l.length = g.dim → l'.length = g.dim →
      (∀ i < g.dim, l[i]? = l'[i]?) → l = l' := by
    intro α l l' h1 h2 h3
    apply List.ext_getElem?
    intro i
    by_cases hi : i < g.dim
    · exact h3 i hi
    · rw [List.getElem?_eq_none (by omega), List.getElem?_eq_none (by omega)]
  have hax : ∀ i < g.dim, ∃ n w c, AxisIs g i n w c ∧ AxisIs h i n w c := by
    intro i hi
    obtain ⟨n1, w1, c1, -, -, q1⟩ := hg.axis i hi
    obtain ⟨n2, w2, c2, -, -, q2⟩ := b2.axis i (by rw [hdim]; exact hi)
    have e1 := q1.nPix
    have e2 := q1.pix
    have e3 := q1.center
    rw [← b5, q2.nPix] at e1
    rw [← b4, q2.pix] at e2
    rw [← b3, q2.center] at e3
    simp only [Option.some.injEq] at e1 e2 e3
    subst e1 e2 e3
    exact ⟨_, _, _, q1, q2⟩
  have hsv : h.side.vals = g.side.vals := key _ _ (b2.side.trans hdim) hg.side (fun i hi => by
    obtain ⟨n, w, c, a, b⟩ := hax i hi; rw [a.side, b.side])
  refine ⟨h, b1, b2, ⟨b3, hsv, b4, b5, b9, by rw [b10, hl.2], ?_, ?_, ?_, ?_⟩, b6, b7, b8,
    by rw [b11]; exact hg2, fun e => by rw [b11]; exact hg3 e, b12, b13, ?_⟩
  · exact key _ _ (b2.axes.trans hdim) hg.axes (fun i hi => by
      obtain ⟨n, w, c, a, b⟩ := hax i hi; rw [a.axes, b.axes])
  · exact key _ _ (b2.centers.trans hdim) hg.centers (fun i hi => by
      obtain ⟨n, w, c, a, b⟩ := hax i hi; rw [a.centers, b.centers])
  · exact key _ _ (b2.faxes.trans hdim) hg.faxes (fun i hi => by
      obtain ⟨n, w, c, a, b⟩ := hax i hi; rw [a.faxes, b.faxes])
  · exact key _ _ (b2.fcenters.trans hdim) hg.fcenters (fun i hi => by
      obtain ⟨n, w, c, a, b⟩ := hax i hi; rw [a.fcenters, b.fcenters])
  · intro hd
    have hSeq : S = g.side := by
      have hl2 : g.side.vals.length = g.dim := hg.side
      have : spreadSide g.side g.center.vals.length = .ok g.side := by
        unfold spreadSide
        rcases hsd : g.side with ⟨b, l⟩
        rw [hsd] at hl2
        simp only at hl2
        match l, hl2 with
        | [], hl2 => simp at hl2; omega
        | [x], hl2 => simp at hl2; omega
        | x :: y :: l, hl2 =>
          simp only
          rw [if_pos]
          exact hl2
      rw [this] at hS
      exact (Except.ok.inj hS).symm
    rw [b14, if_pos, hSeq]
    apply key _ _ (by simp [hSv, hg.side, hg.pix]) (by simp [hg.nPix])
    intro i hi
    obtain ⟨n', w, c, h1, h2, a⟩ := hg.axis i hi
    simp only [List.getElem?_zipWith, hSv, a.side, a.pix, List.getElem?_map, a.nPix,
      Option.map_some, Option.some.injEq]
    rw [mul_div_assoc, div_self h2.ne', mul_one]

end Verif.Map
