import Verif.Model.Behroozi

/-!
# Vocabulary for statements about the tables of star formation rates
-/

namespace Verif.Beh.Spec

variable {K : Type} [Field K] [LinearOrder K]

/-- Every redshift of the data is there with every mass of the data, once. -/
structure Complete (data : List (Row K)) : Prop where
  once : data.Pairwise (fun r r' => ¬ (r.z = r'.z ∧ r.m = r'.m))
  all : ∀ r ∈ data, ∀ r' ∈ data, ∃ r'' ∈ data, r''.z = r.z ∧ r''.m = r'.m

/-- The data give a star formation rate; -1000 stands for none. -/
def Given (r : Row K) : Prop := ¬ |r.sfr + 1000| ≤ 1 / 10 ^ 8 + 1 / 10 ^ 2

/-- The row of the heaviest halo at redshift `z` for which the data give a star formation rate. -/
structure Heaviest (data : List (Row K)) (z : K) (r : Row K) : Prop where
  mem : r ∈ data
  at_z : r.z = z
  given : Given r
  last : ∀ r' ∈ data, r'.z = z → Given r' → r'.m ≤ r.m

/-- Data that can be used: complete, with at least two redshifts and two masses, and with a star formation rate for
some mass at each redshift. -/
structure Usable (data : List (Row K)) : Prop where
  complete : Complete data
  redshifts : ∃ r ∈ data, ∃ r' ∈ data, r.z ≠ r'.z
  masses : ∃ r ∈ data, ∃ r' ∈ data, r.m ≠ r'.m
  given : ∀ r ∈ data, ∃ r' ∈ data, r'.z = r.z ∧ Given r'

/-- `x` and `y` are neighbours among some numbers. -/
def Neighbours (l : List K) (x y : K) : Prop := x ∈ l ∧ y ∈ l ∧ x < y ∧ ∀ u ∈ l, u ≤ x ∨ y ≤ u

/-- The mean of four values with weights: bilinear interpolation. -/
def bilinear (a b c d s t : K) : K := (1 - s) * ((1 - t) * a + t * b) + s * ((1 - t) * c + t * d)

end Verif.Beh.Spec
