import Verif.Model.Sim

/-!
# Vocabulary for statements about snapshots and their metadata
-/

namespace Verif.Sim.Spec

variable {K : Type}

/-- The snapshot's redshift interval, lower end included, upper end excluded. -/
def Covers [LinearOrder K] (s : SnapMeta K) (z : K) : Prop := s.zmin ≤ z ∧ z < s.zmax

/-- Rows listed by increasing redshift whose intervals are non-empty and follow each other
without gap or overlap from `lo` to `hi`. -/
def Tiles [LinearOrder K] : List (SnapMeta K) → K → K → Prop
  | [], lo, hi => lo = hi
  | s :: rest, lo, hi => s.zmin = lo ∧ s.zmin < s.zmax ∧ Tiles rest s.zmax hi

/-- A metadata table (rows in any order) whose snapshots have different redshifts and tile
the range from `lo` to `hi`. -/
def Table [LinearOrder K] (l : List (SnapMeta K)) (lo hi : K) : Prop :=
  ∃ l', l'.Perm l ∧ l'.Pairwise (fun a b => a.redshift < b.redshift) ∧ l' ≠ [] ∧ Tiles l' lo hi

/-- A mass-cut table for the masses `ms`: strictly decreasing cuts, each with the number of
objects at or above it. -/
structure CutTable [LinearOrder K] (ms : List K) (cuts : List (K × ℕ)) : Prop where
  decreasing : cuts.Pairwise (fun a b => a.1 > b.1)
  counts : ∀ c ∈ cuts, c.2 = ms.countP (fun m => decide (c.1 ≤ m))

/-- What the user means by a mass: the stored value in h units, the stored value (which has
h dependence -1, like every stored mass) times `h^(-1)` otherwise. -/
def massIn [Field K] (h : K) (inH : Bool) (stored : K) : K :=
  if inH then stored else stored * h ^ (-1 : ℤ)

/-- A background cosmology: the age decreases strictly with redshift, and the inverse age
function gives a redshift for every age between the ages of two redshifts. -/
structure Physical [Field K] [LinearOrder K] (c : Cosmo K) : Prop where
  anti : ∀ a b, 0 ≤ a → a < b → c.age b < c.age a
  nonneg : ∀ a b t, 0 ≤ a → 0 ≤ b → c.age b ≤ t → t ≤ c.age a → 0 ≤ c.zAt t
  inverse : ∀ a b t, 0 ≤ a → 0 ≤ b → c.age b ≤ t → t ≤ c.age a → c.age (c.zAt t) = t

end Verif.Sim.Spec
