import Verif.Spec.Handler
import Verif.Model.LightCone

/-!
# Vocabulary for statements about opened lightcones
-/

namespace Verif.LC.Spec

open Verif.Handler (State V Op Name returnProperty run)
open Verif.Handler.Spec (changes selection seen)

variable {K : Type}

/-- Whatever is done with the handler that does not change the property itself, it shows `vals` (one
value per object, with the power `e` of `h`) for the property `name`: the values of the selected
objects, as stored in h units and multiplied by the power of `h` otherwise. -/
def Shown [DivisionRing K] [LE K] [DecidableLE K] (st : State K) (name : Name) (e : ℤ) (h : K)
    (vals : List K) : Prop :=
  ∀ ops : List (Op K), (∀ op ∈ ops, ¬ changes name op) → ∀ (useAll : Bool) (b : Option Bool),
    ∃ out, returnProperty (run st ops) name useAll b = .ok (some out) ∧
      out.length = (selection (run st ops) useAll).length ∧
      ∀ j k : ℕ, (selection (run st ops) useAll)[j]? = some k →
        ∃ x, vals[k]? = some x ∧ out[j]? = some (seen h e (b.getD (run st ops).inH) (some x))

/-- The properties every lightcone has. -/
def columns : List (String × (Row K → K)) :=
  [("pos_x", Row.posX), ("pos_y", Row.posY), ("pos_z", Row.posZ), ("ra", Row.ra), ("dec", Row.dec),
    ("redshift", Row.redshift), ("mass", Row.mass)]

/-- Units and power of `h` of the properties of a lightcone, given those of the simulation. -/
def attr (sim : String → Option (String × ℤ)) (name : String) : Option (String × ℤ) :=
  if name ∈ ["ra", "dec"] then some ("radians", 0)
  else if name = "redshift" then some ("None", 0)
  else sim (if name = "masscheck" then "mass" else name)

end Verif.LC.Spec
