import Verif.Model.ConeMovie

/-!
# Vocabulary for statements about animations of lightcones
-/

namespace Verif.Cone.Spec

open Verif.Handler (Name V State returnProperty)

variable {K : Type} [Field K] [LinearOrder K]

/-- What the handler returns for a property. -/
def Column (s : State K) (useAll inH : Bool) (p : Name) (l : List (V K)) : Prop :=
  returnProperty s p useAll (some inH) = .ok (some l)

/-- What the handler returns for the positions. -/
structure Positions (s : State K) (useAll inH : Bool) (xs ys zs ra dec red : List (V K)) : Prop where
  x : Column s useAll inH "pos_x" xs
  y : Column s useAll inH "pos_y" ys
  z : Column s useAll inH "pos_z" zs
  ra : Column s useAll inH "ra" ra
  dec : Column s useAll inH "dec" dec
  redshift : Column s useAll inH "redshift" red

/-- A length divided into as many slides as needed for slides of 50; they have equal widths, the smallest whole number
with which they cover the length. -/
structure Slides (len : K) (n step : ℕ) : Prop where
  pos : 0 < n
  fewest : 50 * ((n : K) - 1) < len
  enough : len ≤ 50 * n
  cover : len ≤ n * step
  tight : (n : K) * ((step : K) - 1) < len

/-- Halo `j` is visible in the frame. -/
def Visible (fr : Frame K) (j : ℕ) : Prop := ∃ s, fr.sizes[j]? = some (some s) ∧ 0 < s

/-- The values used for the sizes: the property or its logarithm, numbers that are not all equal. -/
structure Usable (log10 : K → K) (sc : Scale) (vs : List (V K)) (ks : List K) : Prop where
  numbers : vs.length = ks.length
  linear : sc = .linear → ∀ (j : ℕ) (k : K), ks[j]? = some k → vs[j]? = some (some k)
  log : sc = .log → ∀ (j : ℕ) (k : K), ks[j]? = some k → ∃ x, vs[j]? = some (some x) ∧ 0 < x ∧ k = log10 x
  known : sc ≠ .other
  different : ∃ a ∈ ks, ∃ b ∈ ks, a ≠ b

end Verif.Cone.Spec
