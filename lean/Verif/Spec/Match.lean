import Verif.Model.Match

/-!
# Specification of abundance matching

Only the types of the model are used (`V`, `Dist`, `Extrap`).
-/

namespace Verif.AM.Spec

variable {K : Type} [Field K] [LinearOrder K]

/-- Both are numbers and the first is not greater. -/
def Le (a b : V K) : Prop := ∃ x y, a = some x ∧ b = some y ∧ x ≤ y

/-- A distribution that makes sense between the limits `mn` and `mx`: the cumulative fraction lies between 0
and 1 and never decreases, some of it falls between the limits, and the quantiles between the limits are
numbers between the limits that never decrease. -/
structure Proper (d : Dist K) (mn : K) (mx : WithTop K) : Prop where
  mono : ∀ x y, x ≤ y → d.cdf x ≤ d.cdf y
  spread : d.cdf mn < d.cdf mx
  inside : ∀ c, d.cdf mn ≤ c → c ≤ d.cdf mx → Le (some (mn : WithTop K)) (d.ppf c) ∧ Le (d.ppf c) (some mx)
  quantiles : ∀ c c', d.cdf mn ≤ c → c ≤ c' → c' ≤ d.cdf mx → Le (d.ppf c) (d.ppf c')

/-- The cumulative fraction of the quantile of `c` is `c`. -/
def Inverse (d : Dist K) (mn : K) (mx : WithTop K) : Prop :=
  ∀ c v, d.cdf mn ≤ c → c ≤ d.cdf mx → d.ppf c = some v → d.cdf v = c

/-- The cumulative fraction of a halo: the halos are spread evenly from the fraction missing below to the
one missing above. -/
def fraction (cat : List K) (low high x : K) : K :=
  low + ((cat.countP (fun a => decide (a ≤ x)) : K) - 1) / ((cat.length : K) - 1) * (1 - high - low)

/-- The quantile of the target distribution at the fraction `q` after the missing parts and the limits are
accounted for. -/
def valueAt (d : Dist K) (low high : K) (mn : K) (mx : WithTop K) (q : K) : V K :=
  d.ppf (d.cdf mn + (q - low) / (1 - low - high) * (d.cdf mx - d.cdf mn))

/-- What an option `extrapolate_...` stands for if the limit is `limit`. -/
def fill (limit : WithTop K) : Extrap K → V K
  | .flat => some limit
  | .none => none
  | .value v => v
  | .bad => none

end Verif.AM.Spec
