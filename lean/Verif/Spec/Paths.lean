import Verif.Model.Paths

/-!
# What a path registry should do

The abstract registry: a current root directory and, for every root and kind of
data, a map from names to paths.  It is driven only by what the calls report.
-/

namespace Verif.Paths.Spec

structure Registry where
  root : Option Text
  lookup : Text → Kind → Text → Option Text

def empty : Registry := { root := none, lookup := fun _ _ _ => none }

/-- A successful registration makes its path the current one of its name; a
successful setup selects the root; nothing else changes anything. -/
def after (a : Registry) : Op × Outcome → Registry
  | (.newPath k name _ _ _, .registered p) =>
    { a with lookup := fun r k' n =>
        if a.root = some r ∧ k' = k ∧ n = name then some p else a.lookup r k' n }
  | (.setup _ _ _, .rootSet r) => { a with root := some r }
  | _ => a

def history (log : List (Op × Outcome)) : Registry := log.foldl after empty

/-- Text that survives the file format: no blank and no line break. -/
def Clean (t : Text) : Prop := ' ' ∉ t ∧ '\n' ∉ t ∧ '\r' ∉ t

/-- A usable root: not empty, no line break (blanks are fine). -/
def CleanRoot (t : Text) : Prop := t ≠ [] ∧ '\n' ∉ t ∧ '\r' ∉ t

/-- All names and paths a history of calls registered are clean. -/
def CleanEvent : Op × Outcome → Prop
  | (.newPath _ name _ _ _, .registered p) => Clean name ∧ Clean p
  | (.setup _ _ _, .rootSet r) => CleanRoot r
  | _ => True

end Verif.Paths.Spec
