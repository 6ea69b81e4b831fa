import Verif.Model.SimAll
import Verif.Spec.Handler

/-!
# Vocabulary for statements about all snapshots of a simulation
-/

namespace Verif.SimAll.Spec
open Verif.Handler

variable {K : Type}

/-- A simulation as formatting writes it: distinct snapshot numbers, and a well-formed group for
each. -/
structure Formatted (snaps : List (ℕ × K)) (disk : PyDict ℕ (PyDict Name (Dataset K))) : Prop where
  distinct : (snaps.map Prod.fst).Nodup
  groups : ∀ r ∈ snaps, ∃ g n, disk.get? r.1 = some g ∧ Handler.Spec.WF g n

/-- `out` has one entry per object: the selected objects `sel` get the entries of `vals` in order
(a single value goes to all of them), all others NaN. -/
def Filled (n : ℕ) (sel : List ℕ) (vals out : List (V K)) : Prop :=
  out.length = n ∧
  (∀ i < n, i ∉ sel → out[i]? = some none) ∧
  ((vals.length = sel.length ∧ ∀ (j i : ℕ), sel[j]? = some i → out[i]? = vals[j]?) ∨
    ∃ v, vals = [v] ∧ ∀ i ∈ sel, out[i]? = some v)

/-- The group `g'` is `g` with the results `vals` of a property function stored under `names`, for
a catalogue of `n` objects of which `sel` are selected.  Nothing else changes. -/
structure Stored (g g' : PyDict Name (Dataset K)) (m : MultiProp K) (names : List Name)
    (vals : List (Arr K)) (n : ℕ) (sel : List ℕ) : Prop where
  each : ∀ (k : ℕ) (orig name : Name) (arr : Arr K), m.names[k]? = some orig →
    names[k]? = some name → vals[k]? = some arr →
    ∃ (d : Dataset K) (hd : PyDict Name ℤ), g'.get? name = some d ∧
      Filled n sel arr.vals d.vals ∧ d.userdefined = true ∧
      m.units.get? orig = d.units ∧ d.units.isSome ∧ m.hdep = some hd ∧ hd.get? orig = d.hdep ∧
      d.hdep.isSome
  others : ∀ q, q ∉ names → g'.get? q = g.get? q
  count : vals.length = names.length ∧ names.length = m.names.length

end Verif.SimAll.Spec
