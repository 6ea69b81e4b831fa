import Verif.Spec.Paths
import Verif.Model.PathsShared

/-!
# What sessions side by side should see
-/

namespace Verif.Paths.Spec

/-- The registry all sessions share, and the root each of them uses. -/
structure Board where
  reg : Registry
  rootOf : ℕ → Option Text

def Board.empty : Board := ⟨Spec.empty, fun _ => none⟩

/-- The root session `i` uses from now on. -/
def Board.use (b : Board) (i : ℕ) (r : Option Text) : Board :=
  { b with rootOf := fun j => if j = i then r else b.rootOf j }

/-- A session that begins uses the current root; a successful registration makes its path the current
one of its name under the root of the session; a successful setup selects the root for this session
and for all that begin later. -/
def Board.after (b : Board) : Entry → Board
  | (i, .begin, _) => b.use i b.reg.root
  | (i, .newPath k name _ _ _, some (.registered p)) =>
    { b with reg := ⟨b.reg.root, fun r k' n =>
      if b.rootOf i = some r ∧ k' = k ∧ n = name then some p else b.reg.lookup r k' n⟩ }
  | (i, .setup _ _ _, some (.rootSet r)) => { b.use i (some r) with reg := { b.reg with root := some r } }
  | _ => b

/-- What has been registered, from the log. -/
def board (log : List Entry) : Board := log.foldl Board.after Board.empty

/-- The path a session with this root should get. -/
def Board.find (b : Board) (root : Option Text) (k : Kind) (n : Text) : Option Text :=
  match root with
  | none => none
  | some r => b.reg.lookup r k n

/-- All names and paths are clean. -/
def CleanEntryOf : Entry → Prop
  | (_, .newPath _ name _ _ _, some (.registered p)) => Clean name ∧ Clean p
  | (_, .setup _ _ _, some (.rootSet r)) => CleanRoot r
  | _ => True

/-- With this turn session `i` begins to read the files. -/
def Opens (i : ℕ) : Entry → Prop
  | (j, .begin, _) => j = i
  | (j, .setup _ _ _, some (.rootSet _)) => j = i
  | _ => False

end Verif.Paths.Spec
