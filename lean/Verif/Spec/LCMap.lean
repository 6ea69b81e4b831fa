import Verif.Spec.LCOpen
import Mathlib.Algebra.Order.Monoid.WithTop

/-!
# Vocabulary for statements about maps of lightcones
-/

namespace Verif.LC.Spec

open Verif.Handler (V State Name Op)
open Verif.Handler.Spec (seen changes)

variable {K : Type}

/-- The values `l` of a property with the power `e` of `h`, in h units or without `h`. -/
def shownAs [DivisionRing K] (h : K) (e : ℤ) (inH : Bool) (l : List K) : List (V K) :=
  l.map (fun x => seen h e inH (some x))

/-- The value of object `k`; NaN is `⊤`. -/
def valueAt (l : List (V K)) (k : ℕ) : WithTop K :=
  match (l[k]?).join with
  | some x => (x : WithTop K)
  | none => ⊤

/-- Object `k` of a lightcone, to be put into a map: angles and redshift, and a value for each
property. -/
def entry (rows : List (Row K)) (cols : List (List (V K))) (k : ℕ) : List K × List (V K) :=
  ((rows[k]?).elim [] (fun r => [r.ra, r.dec, r.redshift]), cols.map (fun l => (l[k]?).join))

variable [Field K] [LinearOrder K]

/-- The handler `hd` shows the objects `rows`, and for each property `p` the values `(col p).2` with the
power `(col p).1` of `h`. -/
structure Shows (hd : State K) (h : K) (rows : List (Row K)) (names : List Name)
    (col : Name → ℤ × List K) : Prop where
  ra : Shown hd "ra" 0 h (rows.map Row.ra)
  dec : Shown hd "dec" 0 h (rows.map Row.dec)
  redshift : Shown hd "redshift" 0 h (rows.map Row.redshift)
  column : ∀ p ∈ names, Shown hd p (col p).1 h (col p).2

/-- The calls do not change what is put into the map. -/
def Untouched (names : List Name) (ops : List (Op K)) : Prop :=
  ∀ op ∈ ops, ∀ p ∈ ["ra", "dec", "redshift"] ++ names, ¬ changes p op

/-- The columns of a map as the handler shows them. -/
def columnsOf (h : K) (names : List Name) (col : Name → ℤ × List K) (inH : Bool) : List (List (V K)) :=
  names.map (fun p => shownAs h (col p).1 inH (col p).2)

/-- The distances and redshifts of a lightcone belong together. -/
def Inverse (st : Settings K) (D : K → K) : Prop :=
  ∀ d, D st.zlo ≤ d → d < D st.zhi → st.zlo ≤ st.assignZ d ∧ st.assignZ d < st.zhi

/-- Nothing lies on the upper limits of the map, and it is as high as wide for a circular lightcone. -/
structure Inner (st : Settings K) (rows : List (Row K)) (freq : Option K) : Prop where
  circle : st.mode = .circle → 1 ≤ st.aspect
  box : st.mode = .box → ∀ r ∈ rows, r.ra ≠ st.angle / 2 ∧ r.dec ≠ st.angle * st.aspect / 2
  freq : freq ≠ none → ∀ r ∈ rows, r.redshift ≠ st.zlo

end Verif.LC.Spec
