import Verif.Props.Schechter

/-!
# Quantiles at the ends, and parameters that are refused
-/

set_option linter.unusedSectionVars false

namespace Verif.LF

open Verif.Gal (Fn)
open Spec

variable {K : Type} [Field K] [LinearOrder K] [IsStrictOrderedRing K]

/-- **C91**: the quantile of 0 is the lower limit, that of 1 the upper limit, and outside there is none. -/
theorem C91_quantile_ends (fn : Fn K) (d : Tab K) (ha : d.accepted = true) :
    d.ppf fn 0 = some d.xmin ∧ d.ppf fn 1 = some (d.xmin * 10 ^ 20) ∧
      ∀ q, q < 0 ∨ 1 < q → d.ppf fn q = none := by
  refine ⟨?_, ?_, ?_⟩
  · unfold Tab.ppf
    rw [if_neg (by simp [ha]), if_pos rfl]
  · unfold Tab.ppf
    rw [if_neg (by simp [ha]), if_neg one_ne_zero, if_pos rfl]
  · intro q hq
    unfold Tab.ppf
    rw [if_pos (Or.inr hq)]

/-- **C91**: scales, lower limits and widths that are not positive give NaN everywhere, and only these. -/
theorem C91_parameters (fn : Fn K) (phi0 x0 alpha sigma xmin : K) :
    (((modified fn phi0 x0 alpha sigma xmin).accepted = true ↔ 0 < x0 ∧ 0 < xmin ∧ 0 < sigma) ∧
      ((doubled fn phi0 x0 alpha sigma xmin).accepted = true ↔ 0 < x0 ∧ 0 < xmin)) ∧
    ∀ d : Tab K, d.accepted = false → ∀ x, d.cdf fn x = none ∧ d.pdf fn x = none ∧ d.ppf fn x = none := by
  refine ⟨⟨?_, ?_⟩, ?_⟩
  · simp [modified]
  · simp [doubled]
  · intro d hd x
    refine ⟨?_, ?_, ?_⟩
    · unfold Tab.cdf; rw [if_pos hd]
    · unfold Tab.pdf; rw [if_pos hd]
    · unfold Tab.ppf; rw [if_pos (Or.inl hd)]

example (fn : Fn ℝ) : (doubled fn 1 1 1 2 0).cdf fn 1 = none ∧ (doubled fn 1 1 1 2 1).ppf fn 0 = some 1 := by
  refine ⟨?_, ?_⟩
  · have h := (C91_parameters fn 1 1 1 2 0).2 (doubled fn 1 1 1 2 0)
      (Bool.eq_false_iff.2 (fun h => by simpa using ((C91_parameters fn 1 1 1 2 0).1.2.1 h).2)) 1
    exact h.1
  · exact (C91_quantile_ends fn _ ((C91_parameters fn 1 1 1 2 1).1.2.2 (by norm_num))).1

/-- **C92**: the quantile of 0 is the lower limit, that of 1 infinite, and outside there is none. -/
theorem C92_quantile_ends (sp : Special) (d : Schechter) (ha : d.accepted = true) :
    d.ppf sp 0 = some (d.xmin : WithTop ℝ) ∧ d.ppf sp 1 = some ⊤ ∧
      ∀ q, q < 0 ∨ 1 < q → d.ppf sp q = none := by
  refine ⟨?_, ?_, ?_⟩
  · unfold Schechter.ppf
    rw [if_neg (by simp [ha]), if_pos rfl]
  · unfold Schechter.ppf
    rw [if_neg (by simp [ha]), if_neg one_ne_zero, if_pos rfl]
  · intro q hq
    unfold Schechter.ppf
    rw [if_pos (Or.inr hq)]

/-- **C92**: scales and lower limits that are not positive and negative numbers of objects give NaN
everywhere, and only these. -/
theorem C92_parameters (sp : Special) (d : Schechter) :
    (d.accepted = true ↔ 0 < d.x0 ∧ 0 < d.xmin ∧ ∀ p ∈ d.parts, 0 ≤ p.2) ∧
    (d.accepted = false → (∀ xs, d.cdf sp xs = .ok (xs.map (fun _ => none)) ∧
      d.pdf sp xs = .ok (xs.map (fun _ => none))) ∧ ∀ q, d.ppf sp q = none) := by
  refine ⟨?_, ?_⟩
  · simp [Schechter.accepted, and_assoc]
  · intro hd
    refine ⟨fun xs => ⟨?_, ?_⟩, fun q => ?_⟩
    · unfold Schechter.cdf; rw [if_pos hd]
    · unfold Schechter.pdf; rw [if_pos hd]
    · unfold Schechter.ppf; rw [if_pos (Or.inl hd)]

example (sp : Special) : (single 1 (-2) 1 2).ppf sp 0 = some ((2 : ℝ) : WithTop ℝ) :=
  (C92_quantile_ends sp _ ((C92_parameters sp (single 1 (-2) 1 2)).1.2
    ⟨by norm_num [single], by norm_num [single], by simp [single]⟩)).1

end Verif.LF
