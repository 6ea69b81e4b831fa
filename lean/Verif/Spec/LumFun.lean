import Verif.Model.LumFun
import Mathlib.MeasureTheory.Integral.Bochner.Set
import Mathlib.MeasureTheory.Constructions.BorelSpace.Real
import Mathlib.MeasureTheory.Measure.Lebesgue.Basic

/-!
# What users expect of the distributions
-/

namespace Verif.LF.Spec

open Verif.Gal (Fn)

variable {K : Type}

/-- Facts about powers of ten, logarithms and the exponential function. -/
structure Logs [Field K] [LinearOrder K] (fn : Fn K) : Prop where
  strict : ∀ a b, a < b → fn.pow 10 a < fn.pow 10 b
  log_pow : ∀ a, fn.log10 (fn.pow 10 a) = a
  pow_log : ∀ x, 0 < x → fn.pow 10 (fn.log10 x) = x
  shift : ∀ a, fn.pow 10 (a + 20) = fn.pow 10 a * 10 ^ 20
  pow_pos : ∀ x y, 0 < x → 0 < fn.pow x y
  exp_pos : ∀ x, 0 < fn.exp x

/-- The values at which the tables are made: 500 for every factor of ten, over twenty factors of ten. -/
def node [Field K] (fn : Fn K) (xmin : K) (i : ℕ) : K := fn.pow 10 (fn.log10 xmin + (i : K) / 500)

/-- The sum of the luminosity function over the first `i` of these values. -/
def sumBelow [Field K] (fn : Fn K) (f : K → K) (xmin : K) : ℕ → K
  | 0 => 0
  | i + 1 => sumBelow fn f xmin i + f (node fn xmin i)

/-- A luminosity function is positive above the minimum. -/
def Positive [Zero K] [LinearOrder K] (f : K → K) (xmin : K) : Prop := ∀ x, xmin ≤ x → 0 < f x

/-- `F` is a cumulative distribution on the numbers: it is a fraction everywhere, increases, and is zero
below `xmin`. -/
structure Cumulative [Zero K] [One K] [LinearOrder K] (F : K → Option K) (xmin : K) : Prop where
  fraction : ∀ x, ∃ c, F x = some c ∧ 0 ≤ c ∧ c ≤ 1
  increasing : ∀ x y c d, x ≤ y → F x = some c → F y = some d → c ≤ d
  below : ∀ x, x ≤ xmin → F x = some 0

/-- The quantile function undoes the cumulative distribution at `x`. -/
def Undone (F Q : K → Option K) (x : K) : Prop := ∃ c, F x = some c ∧ Q c = some x

/-- The integral of a function from `x` to infinity. -/
noncomputable def tail (f : ℝ → ℝ) (x : ℝ) : ℝ := ∫ t in Set.Ioi x, f t

/-- The functions of `scipy.special` are what their documentation says. -/
structure Lawful (sp : Special) : Prop where
  gamma : ∀ a x, 0 < a → 0 < x → sp.gamma a * sp.gammaincc a x = tail (fun t => t ^ (a - 1) * Real.exp (-t)) x
  expi : ∀ x, 0 < x → -sp.expi (-x) = tail (fun t => t⁻¹ * Real.exp (-t)) x

/-- The Schechter function, or the sum of two: `x0`, pairs of slope and amplitude. -/
noncomputable def schechter (x0 : ℝ) (parts : List (ℝ × ℝ)) (x : ℝ) : ℝ :=
  (parts.map (fun p => p.2 / x0 * (x / x0) ^ p.1 * Real.exp (-(x / x0)))).sum

/-- The part of all objects above `xmin` that is below `x`. -/
noncomputable def partBelow (f : ℝ → ℝ) (xmin x : ℝ) : ℝ :=
  if x ≤ xmin then 0 else (∫ t in Set.Ioc xmin x, f t) / tail f xmin

/-- The answer for a single value. -/
noncomputable def alone (F : List ℝ → Except Err (List (Option ℝ))) (x : ℝ) : Option ℝ :=
  match F [x] with
  | .ok [c] => c
  | _ => none

/-- An array gets the values that its elements get alone. -/
def Elementwise (F : List ℝ → Except Err (List (Option ℝ))) (xs : List ℝ) : Prop :=
  F xs = .ok (xs.map (alone F))

/-- There are objects. -/
def Inhabited (d : Schechter) : Prop := d.accepted = true ∧ ∃ p ∈ d.parts, 0 < p.2

/-- Values of a density that may be missing. -/
noncomputable def value (F : ℝ → Option ℝ) (x : ℝ) : ℝ := (F x).getD 0

end Verif.LF.Spec
