import Verif.Spec.Grid
import Verif.Model.GridAdd

/-!
# Vocabulary for statements about adding objects to a grid
-/

namespace Verif.Map.Spec

variable {K V : Type} [LinearOrder K]

/-- A position is in the half-open cell `c`: at or above its lower edge and below its upper edge on
every axis; `axes` are the lists of cell edges. -/
def InCell : List (List K) → List ℕ → List K → Prop
  | [], [], [] => True
  | e :: axes, i :: c, x :: row =>
    (∃ lo ∈ e[i]?, ∃ hi ∈ e[i + 1]?, lo ≤ x ∧ x < hi) ∧ InCell axes c row
  | _, _, _ => False

instance decInCell (axes : List (List K)) (c : List ℕ) (row : List K) :
    Decidable (InCell axes c row) := by
  induction axes generalizing c row with
  | nil =>
    match c, row with
    | [], [] => exact isTrue trivial
    | [], _ :: _ => exact isFalse id
    | _ :: _, _ => exact isFalse id
  | cons e axes ih =>
    match c, row with
    | [], _ => exact isFalse id
    | _ :: _, [] => exact isFalse id
    | i :: c, x :: row =>
      have : Decidable (∃ lo ∈ e[i]?, ∃ hi ∈ e[i + 1]?, lo ≤ x ∧ x < hi) :=
        match h1 : e[i]?, h2 : e[i + 1]? with
        | some lo, some hi => decidable_of_iff (lo ≤ x ∧ x < hi) (by simp)
        | none, _ => isFalse (by simp)
        | some _, none => isFalse (by simp)
      have := ih c row
      exact inferInstanceAs (Decidable (_ ∧ _))

/-- A position is inside the grid: in some cell. -/
def InGrid (axes : List (List K)) (row : List K) : Prop := ∃ c, InCell axes c row

/-- The values of the objects in cell `c`, added up. -/
def cellSum [AddCommMonoid V] (axes : List (List K)) (c : List ℕ) (objs : List (List K × V)) : V :=
  ((objs.filter (fun o => decide (InCell axes c o.1))).map (·.2)).sum

/-- All cells of a grid with these numbers of pixels. -/
def allCells : List ℕ → List (List ℕ)
  | [] => [[]]
  | n :: shape => (List.range n).flatMap (fun i => (allCells shape).map (fun c => i :: c))

/-- The sum of property `p` over all cells. -/
def total [AddCommMonoid V] (g : Grid K V) (a : Arr V) (p : ℕ) : V :=
  ((allCells g.nPix).map (fun c => cell a c p)).sum

end Verif.Map.Spec
