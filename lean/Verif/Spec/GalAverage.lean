import Mathlib.Probability.Distributions.Gaussian.Real
import Verif.Spec.Galprops

/-!
# Vocabulary for statements about averages of random galaxy properties
-/

namespace Verif.Gal.Spec

open MeasureTheory ProbabilityTheory

variable {Ω G : Type} [MeasurableSpace Ω]

/-- Generators that depend on chance: in every state, of the `n` numbers asked for each one follows
the standard normal distribution, or is distributed evenly between 0 and 1. -/
structure Random (P : Measure Ω) (R : Ω → Rng ℝ G) : Prop where
  normal : ∀ n g, ∃ N : ℕ → Ω → ℝ, (∀ ω, ((R ω).normal n g).1 = (List.range n).map (fun i => N i ω)) ∧
    ∀ i, HasLaw (N i) (gaussianReal 0 1) P
  uniform : ∀ n g, ∃ U : ℕ → Ω → ℝ, (∀ ω, ((R ω).uniform n g).1 = (List.range n).map (fun i => U i ω)) ∧
    ∀ i, HasLaw (U i) (volume.restrict (Set.Icc 0 1)) P

/-- The same call with its random option switched off. -/
def plain : Call ℝ → Call ℝ
  | .keating16 mass mMin a _ sig => .keating16 mass mMin a false sig
  | .li16 sfr d a b r _ sig => .li16 sfr d a b r false sig
  | .pullen13 age mass z _ l => .pullen13 age mass z false l
  | .lidz11 mass d _ => .lidz11 mass d false
  | .kamenetzky16 sfr lines => .kamenetzky16 sfr lines
  | .hcnGao sfr d a b r _ sig => .hcnGao sfr d a b r false sig
  | .hcnBreysse mass d _ => .hcnBreysse mass d false
  | .delooze14 sfr line set _ fix => .delooze14 sfr line set false fix
  | .uzgil14 unit sfr d line _ sig => .uzgil14 unit sfr d line false sig
  | .spinoglio12 unit sfr d line _ sig => .spinoglio12 unit sfr d line false sig
  | .schaerer20 sfr set _ sig => .schaerer20 sfr set false sig
  | .zhao13 sfr d _ sig => .zhao13 sfr d false sig
  | .padmanabhan19 mass z m1 b n1 a _ sig => .padmanabhan19 mass z m1 b n1 a false sig
  | .yang22 fit mass z line f _ fix => .yang22 fit mass z line f false fix
  | .behroozi p ev z mass _ sig => .behroozi p ev z mass false sig

/-- Calls with a random duty cycle `duty`. -/
inductive DutyCycle : Call ℝ → Prop
  | lidz (mass duty) (h : Fraction duty) : DutyCycle (.lidz11 mass duty true)
  | breysse (mass duty) (h : Fraction duty) : DutyCycle (.hcnBreysse mass duty true)
  | pullen (age : ℝ → ℝ) (mass z : Arg ℝ) (sf : ℝ) (hsf : 0 ≤ sf) (lo hi : ℝ)
      (hz : ∀ x ∈ z.list, lo ≤ x ∧ x ≤ hi) (hage : ∀ x, lo ≤ x → x ≤ hi → 0 < age x)
      (hl : z.list.length = mass.list.length ∨ z.list.length = 1) :
      DutyCycle (.pullen13 age mass z true sf)

/-- Calls with scatter of `s` dex; `keep` if the documentation says that the mean is preserved. -/
inductive Scatter : Call ℝ → (keep : Bool) → (s : ℝ) → Prop
  | li (sfr d a b r s) : Scatter (.li16 sfr d a b r true s) true s
  | gao (sfr d a b r s) : Scatter (.hcnGao sfr d a b r true s) true s
  | padmanabhan (mass z m1 b n1 a s) : Scatter (.padmanabhan19 mass z m1 b n1 a true (some s)) true s
  | behroozi (ev z mass s) : Scatter (.behroozi true ev z mass true s) true s
  | keating (mass mMin a s) : Scatter (.keating16 mass mMin a true s) false s
  | delooze (sfr line set s) : Scatter (.delooze14 sfr line set true (some s)) false s
  | uzgil (unit sfr d line s) : Scatter (.uzgil14 unit sfr d line true s) false s
  | spinoglio (unit sfr d line s) : Scatter (.spinoglio12 unit sfr d line true s) false s
  | schaerer (sfr set s) : Scatter (.schaerer20 sfr set true s) false s
  | zhao (sfr d s) : Scatter (.zhao13 sfr d true s) false s
  | yang (fit mass z line s) : Scatter (.yang22 fit mass z line false true (some s)) false s

/-- On average, each of the values `ys` is that of `xs`. -/
def AverageOf (P : Measure Ω) (ys : Ω → List ℝ) (xs : List ℝ) : Prop :=
  (∀ ω, (ys ω).length = xs.length) ∧ ∀ (i : ℕ) (x : ℝ), xs[i]? = some x →
    Integrable (fun ω => (ys ω).getD i 0) P ∧ ∫ ω, (ys ω).getD i 0 ∂P = x

/-- Each of the values `ys` has a logarithm (to the base 10) that is distributed normally, with the
standard deviation `s`, around that of the value in `xs` reduced by `shift`; zeros remain. -/
def ScatteredAround (P : Measure Ω) (ys : Ω → List ℝ) (xs : List ℝ) (shift s : ℝ) : Prop :=
  (∀ ω, (ys ω).length = xs.length) ∧ ∀ (i : ℕ) (x : ℝ), xs[i]? = some x →
    (0 < x → (∀ ω, 0 < (ys ω).getD i 0) ∧ HasLaw (fun ω => Real.log ((ys ω).getD i 0) / Real.log 10)
      (gaussianReal (Real.log x / Real.log 10 - shift) (Real.toNNReal (s ^ 2))) P) ∧
    (x = 0 → ∀ ω, (ys ω).getD i 0 = 0)

end Verif.Gal.Spec
