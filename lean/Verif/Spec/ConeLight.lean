import Verif.Spec.ConeObserve
import Verif.Spec.HandlerKept
import Verif.Props.HandlerMake

/-!
# Vocabulary for statements about light computed for the objects of a lightcone
-/

namespace Verif.Inst.Spec

variable {K : Type} [_root_.Field K]

/-- Object `k` of a lightcone as source of the light `light k`: its angles, and its redshift or the frequency
`f / (1 + z)` of a line. -/
def LightOf (rows : List (LC.Row K)) (line : Option K) (light : ℕ → K) (k : ℕ) (o : Source K) : Prop :=
  ∃ r, rows[k]? = some r ∧ o.x = r.ra ∧ o.y = r.dec ∧
    o.z = line.elim r.redshift (fun f => f / (1 + r.redshift)) ∧ o.v = light k

/-- What the function gets for object `k`: the values of the properties `(col p).2`, in h units or without `h`. -/
def inputs (h : K) (col : Handler.Name → ℤ × List K) (m : Handler.MultiProp K) (o : Handler.MakeOpts K) (k : ℕ) :
    List (Handler.V K) :=
  m.kwargs.map (fun kw => ((LC.Spec.shownAs h (col (Handler.Spec.source o kw)).1 m.giveH
    (col (Handler.Spec.source o kw)).2)[k]?).join)

/-- The light of object `k`, as shown in h units or without `h`: what the function computes, or NaN if the object was
not among those it was computed for. -/
def light (h : K) (inH returnH : Bool) (e : ℤ) (gal : ℕ → List (Handler.V K) → Handler.V K) (j : ℕ) (chosen : List ℕ)
    (ins : ℕ → List (Handler.V K)) (k : ℕ) : Handler.V K :=
  Handler.Spec.seen h e inH (if k ∈ chosen then Handler.Spec.stored returnH h e (gal j (ins k)) else none)

end Verif.Inst.Spec
