import Verif.Model.Places
import Verif.Spec.Paths

/-!
# Where things should be found

A notebook of a user who writes down which directory each catalogue and each lightcone maker said it uses.
-/

namespace Verif.Paths.Spec

/-- The notebook after a program: a catalogue whose place is remembered, a lightcone maker, and a new root directory
are written down. -/
def note (a : Registry) : Program × Except Outcome Place → Registry
  | (.catalogue sim _ _ _, .ok ⟨p, true⟩) =>
    { a with lookup := fun r k n => if a.root = some r ∧ k = .sim ∧ n = sim then some p else a.lookup r k n }
  | (.maker sim _, .ok ⟨p, true⟩) =>
    { a with lookup := fun r k n => if a.root = some r ∧ k = .lc ∧ n = sim then some p else a.lookup r k n }
  | (.setup _, .ok ⟨p, _⟩) => { a with root := some p }
  | _ => a

/-- The notebook after all programs. -/
def notebook (log : List (Program × Except Outcome Place)) : Registry := log.foldl note empty

/-- What the notebook says. -/
def Registry.says (a : Registry) (k : Kind) (n : Text) : Option Text := a.root.bind fun r => a.lookup r k n

/-- The directories have no blanks and no line breaks in their names (for a root directory, no line breaks). -/
def CleanPlace : Program × Except Outcome Place → Prop
  | (.setup _, .ok ⟨p, _⟩) => CleanRoot p
  | (_, .ok ⟨p, _⟩) => Clean p
  | _ => True

end Verif.Paths.Spec
