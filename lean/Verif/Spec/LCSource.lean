import Mathlib.LinearAlgebra.Matrix.Notation
import Verif.Spec.Format
import Verif.Props.Format

/-!
# Vocabulary for statements about lightcones of formatted simulations
-/

namespace Verif.LC.Spec

open Verif.Format (Cat Fields Raw Disk Run LastToFormat Reached)
open Verif.Format.Spec (Stored value Uses Sound Formats)

variable {K : Type} [LinearOrder K]

/-- What a formatted snapshot was made of: a catalogue with its table of extra properties, the raw
data, and the order in which the raw halos are stored. -/
structure Origin (K : Type) where
  cat : Cat K
  other : Fields
  raw : Raw K
  order : List ℕ

/-- `o` is what the last call that formatted snapshot `i` made it of. -/
def Origin.Of (o : Origin K) (hs : List (Run K × Disk K)) (i : ℕ) : Prop :=
  (∃ s, LastToFormat hs s i ∧ s.1.cat = o.cat ∧ Uses s.1.cat s.1.opts s.2 o.other ∧
    s.2.raw.get? i = some o.raw) ∧ o.order.Perm (List.range o.raw.n)

/-- `o` is what some call, made after others that were completed, failed or interrupted, was to make
snapshot `i` of. -/
def Origin.FromCall (o : Origin K) (d0 : Disk K) (i : ℕ) : Prop :=
  (∃ (r : Run K) (d1 : Disk K), Reached d0 d1 ∧ Sound r.cat ∧ r.cat = o.cat ∧
    Uses r.cat r.opts d1 o.other ∧ Formats r.cat r.opts d1 i ∧ d1.raw.get? i = some o.raw) ∧
  o.order.Perm (List.range o.raw.n)

/-- The property `name` of raw halo `j` is `x`. -/
def Origin.Raw (o : Origin K) (j : ℕ) (name : String) (x : K) : Prop :=
  ∃ e, Stored o.cat.basic o.other e ∧ e.sub.name = name ∧ value o.cat o.raw e j = some (.num x)

/-- The names of the positions. -/
def posName : Fin 3 → String := ![("pos_x" : String), "pos_y", "pos_z"]

end Verif.LC.Spec
