import Verif.Model.InstPlots
import Mathlib.Order.Monotone.Defs

/-!
# Vocabulary for statements about reference frequencies and plots of instruments
-/

namespace Verif.InstPlot.Spec

open Verif.Map (Arr)

variable {K W : Type} [Field K] [LinearOrder K]

/-- A response that rises up to the (logarithm of the) frequency `p` and falls from there on. -/
structure Peak (y : K → K) (p : K) : Prop where
  rises : ∀ a b, a < b → b ≤ p → y a < y b
  falls : ∀ a b, p ≤ a → a < b → y b < y a

/-- A response that is constant between two frequencies and zero elsewhere. -/
structure Box (y : K → K) (lower upper : K) : Prop where
  inside : ∃ h, 0 < h ∧ ∀ e, lower ≤ e → e ≤ upper → y e = h
  below : ∀ e, e < lower → y e = 0
  above : ∀ e, upper < e → y e = 0

/-- The spatial response of a detector is the function `v` of the two positions (and the frequency). -/
def Beam (d : Det K W) (v : K → K → Option K → W) : Prop :=
  ∀ x y f, ∃ a, d.spatial x y f = .ok a ∧ a.shape = [x.length, y.length, 1] ∧
    ∀ (i j : ℕ) (p q : K), x[i]? = some p → y[j]? = some q → a.get [i, j, 0] = v p q f

/-- Position `i` of 100 positions from `a` to `b`. -/
def place (a b : K) (i : ℕ) : K := a + i * ((b - a) / 99)

/-- A limit in space: the one given, or `k` times the resolution of the instrument. -/
def Limit (given best : Option K) (k x : K) : Prop :=
  given = some x ∨ given = none ∧ ∃ r, best = some r ∧ x = k * r

/-- The region shown. -/
def Region (l : Limits K) (best : Option K) (x0 x1 y0 y1 : K) : Prop :=
  Limit l.xmin best (-5) x0 ∧ Limit l.xmax best 5 x1 ∧ Limit l.ymin best (-5) y0 ∧ Limit l.ymax best 5 y1

/-- The frequencies shown: those given, or from 0.9 times the least to 1.1 times the greatest reference frequency. -/
def Band (l : Limits K) (refs : List (Option K)) (f0 f1 : K) : Prop :=
  (l.fmin = some f0 ∨ l.fmin = none ∧ ∃ m, some m ∈ refs ∧ (∀ r ∈ refs, ∃ q, r = some q ∧ m ≤ q) ∧ f0 = 9 / 10 * m) ∧
  (l.fmax = some f1 ∨ l.fmax = none ∧ ∃ m, some m ∈ refs ∧ (∀ r ∈ refs, ∃ q, r = some q ∧ q ≤ m) ∧ f1 = 11 / 10 * m)

/-- The detectors shown: all, or those named (no name twice). -/
def Shown (known names shown : List String) : Prop :=
  names = [] ∧ shown = known ∨ names ≠ [] ∧ names.Nodup ∧ (∀ n ∈ names, n ∈ known) ∧ shown = names

end Verif.InstPlot.Spec
