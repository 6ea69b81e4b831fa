import Verif.Spec.LCOpen
import Verif.Model.LCCalls

/-!
# Vocabulary for statements about calls for sets of lightcones
-/

namespace Verif.LCI.Spec

open Verif.Handler (Name Op State Arg Err)
open Verif.LCH (EvoArgs)

variable {K : Type} {α : Type}

/-- What a call does to a handler; statistics change nothing. -/
def op : Method K α → Option (Op K)
  | .ret p useAll inH => some (.ret p useAll inH)
  | .make m o => some (.make m o)
  | .write ps ov => some (.write ps ov)
  | .delete ps => some (.delete ps)
  | .range p lo hi reset inH => some (.range p lo hi reset inH)
  | .setInH b => some (.setInH b)
  | .stat .. => none

/-- Two dictionaries of keywords are the same for a statistic that is given the edges and volumes of the
bins in the keywords asked for. -/
def SameKws (a : EvoArgs K) (o o' : PyDict Name (Arg K)) : Prop :=
  ∀ k, o.get? k = o'.get? k ∨ (k = "zmin" ∧ a.zminKw = true) ∨ (k = "zmax" ∧ a.zmaxKw = true) ∨
    (k = "volume" ∧ a.volumeKw = true)

/-- A function of keywords does not depend on their order. -/
def Keyworded (f : PyDict Name (Arg K) → Except Err α) : Prop :=
  ∀ o o' : PyDict Name (Arg K), (∀ k, o.get? k = o'.get? k) → f o = f o'

end Verif.LCI.Spec
