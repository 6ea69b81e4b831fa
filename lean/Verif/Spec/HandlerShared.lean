import Verif.Model.HandlerShared
import Verif.Spec.Handler

/-!
# Vocabulary for handlers side by side
-/

namespace Verif.Handler.Spec

variable {K : Type}

/-- The calls of handler `i` in a sequence of turns. -/
def own (i : ℕ) : List (ℕ × Turn K) → List (Op K)
  | [] => []
  | (j, .call op) :: ts => if j = i then op :: own i ts else own i ts
  | _ :: ts => own i ts

/-- What a handler that nobody disturbs returns for a sequence of calls. -/
def undisturbed [DivisionRing K] [LE K] [DecidableLE K] : State K → List (Op K) → List (Reply K)
  | _, [] => []
  | s, op :: ops => reply s op :: undisturbed (step s op) ops

/-- The properties that a call names: those it reads, makes, writes or deletes. -/
def mentions (p : Name) : Op K → Prop
  | .load ps => p ∈ ps
  | .unload ps => p ∈ ps
  | .ret q _ _ => p = q
  | .make m o => p ∈ o.rename.getD m.names ∨ ∃ kw ∈ m.kwargs, p = (o.remap.get? kw).getD kw
  | .write ps _ => p ∈ ps
  | .delete ps => p ∈ ps
  | .range q _ _ _ _ => q = some p
  | .setInH _ => False

/-- Does the turn change property `p`? -/
def turnChanges (p : Name) : Turn K → Prop
  | .open _ _ => False
  | .call op => changes p op

/-- The others keep away from the properties that handler `i` uses: its calls name only properties in `N`, and
the calls of the others make, write and delete only properties outside `N`. -/
def Apart (N : Name → Prop) (i : ℕ) (ts : List (ℕ × Turn K)) : Prop :=
  ∀ j t, (j, t) ∈ ts →
    (j = i → ∃ op, t = .call op ∧ ∀ p, mentions p op → N p) ∧
    (j ≠ i → ∀ p, N p → ¬ turnChanges p t)

end Verif.Handler.Spec
