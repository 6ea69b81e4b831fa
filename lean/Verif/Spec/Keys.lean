import Verif.Model.Plots

/-!
# Vocabulary for statements about the lists of properties of a handler
-/

namespace Verif.Plot.Spec

open Verif.Handler (Name State Op MultiProp)

variable {K : Type}

/-- The lists that the user sees: what can be returned, what is in memory, what is in the file, what was made. -/
structure Lists (K : Type) where
  any : List Name
  loaded : List Name
  saved : List Name
  generated : List Name

/-- The lists describe the handler and its file: no name twice; saved are the properties in the file; the others were
made from this handler and were not there at the beginning (`first`); everything in memory or in the file is listed. -/
structure Correct (first : List Name) (file : List Name) (l : Lists K) : Prop where
  once : l.any.Nodup ∧ l.loaded.Nodup ∧ l.saved.Nodup ∧ l.generated.Nodup
  saved : ∀ p, p ∈ l.saved ↔ p ∈ file ∧ p ≠ "mass_cuts"
  any : ∀ p, p ∈ l.any ↔ p ∈ first ∨ p ∈ l.generated
  new : ∀ p ∈ l.generated, p ∉ first
  loaded : ∀ p ∈ l.loaded, p ∈ l.any
  inFile : ∀ p ∈ l.saved, p ∈ l.any

/-- Calls that do not delete anything; the names under which properties are made are different from each other, not the
one reserved for the table of masses, and the units and powers of h of the properties are known. -/
def Plain : Op K → Prop
  | .delete _ => False
  | .make m o => (o.rename.getD m.names).Nodup ∧ "mass_cuts" ∉ o.rename.getD m.names ∧
      (∀ p ∈ m.names, (m.units.get? p).isSome = true ∧ ∃ hd, m.hdep = some hd ∧ (hd.get? p).isSome = true)
  | _ => True

end Verif.Plot.Spec
