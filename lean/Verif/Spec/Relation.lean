import Verif.Model.Relation

/-!
# What users expect of the tabulated relations
-/

namespace Verif.Rel.Spec

open Verif.Gal (Fn)
open Verif.Sim (Err)

variable {K : Type} [Field K] [LinearOrder K]

/-- A distribution of positive values with a positive number of objects. -/
structure Fair (l : Law K) : Prop where
  zero : l.dist.cdf ((0 : K) : WithTop K) = 0
  top : l.dist.cdf ⊤ = 1
  total : 0 < l.total
  positive : ∀ c, 0 < c → c < 1 → ∃ x : K, 0 < x ∧ l.dist.ppf c = some (x : WithTop K)

/-- The part of the halos above a value: one for the lightest halo, zero for the heaviest. -/
def above (cat : List K) (x : K) : K :=
  1 - ((cat.countP (fun a => decide (a ≤ x)) : K) - 1) / ((cat.length : K) - 1)

/-- A number of galaxies that has `c` of them below some value has this many above. -/
def brighter (total c : K) : K := total * (1 - c)

/-- Heavier halos never get less. -/
def Rising (f : K → K → Option K) (z : K) : Prop :=
  ∀ x y v w, x ≤ y → f x z = some v → f y z = some w → v ≤ w

/-- The three files belong together: what a construction that was not interrupted wrote. -/
def Whole (before after now : Disk K) : Prop := now = before ∨ now = after

/-- No files. -/
def nothing : Disk K := ⟨none, none, none⟩

end Verif.Rel.Spec
