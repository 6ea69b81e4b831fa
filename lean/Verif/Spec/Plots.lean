import Verif.Model.Plots
import Verif.Spec.Handler

/-!
# Vocabulary for statements about plots
-/

namespace Verif.Plot.Spec

open Verif.Handler (Name V State returnProperty)
open Verif.Handler.Spec (selection)

variable {K : Type} [DivisionRing K]

/-- One point for each selected object, in order: its two properties in the units asked for. -/
def Points (s : State K) (xname yname : Name) (useAll inH : Bool) (c : Curve K) : Prop :=
  ∃ fx fy, returnProperty s xname true (some inH) = .ok (some fx) ∧
    returnProperty s yname true (some inH) = .ok (some fy) ∧
    c.xs.length = (selection s useAll).length ∧ c.ys.length = (selection s useAll).length ∧
    ∀ (j i : ℕ), (selection s useAll)[j]? = some i → c.xs[j]? = fx[i]? ∧ c.ys[j]? = fy[i]?

/-- The style of the points: what the caller gave, points instead of lines unless the caller says otherwise. -/
def Styled (kws style : PyDict String String) : Prop :=
  (∀ k v, kws.get? k = some v → style.get? k = some v) ∧
  (kws.get? "ls" = none → kws.get? "linestyle" = none → style.get? "ls" = some "") ∧
  (kws.get? "marker" = none → style.get? "marker" = some ".") ∧
  (∀ k v, style.get? k = some v → k = "ls" ∨ k = "marker" ∨ kws.get? k = some v)

end Verif.Plot.Spec
