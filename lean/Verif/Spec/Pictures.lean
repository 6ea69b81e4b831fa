import Verif.Model.Pictures
import Verif.Spec.Grid

/-!
# Vocabulary for statements about pictures of grids
-/

namespace Verif.Pic.Spec

open Verif.Map (Grid Arr)

variable {K V W : Type}

/-- The indices of the cells of a grid with these numbers of cells. -/
def cells : List ℕ → List (List ℕ)
  | [] => [[]]
  | n :: l => (List.range n).flatMap (fun k => (cells l).map (fun c => k :: c))

/-- Does the cell have these indices along these axes? -/
def At (at' : List (ℕ × ℕ)) (c : List ℕ) : Prop := ∀ q ∈ at', c[q.1]? = some q.2

instance (at' : List (ℕ × ℕ)) (c : List ℕ) : Decidable (At at' c) := by unfold At; infer_instance

/-- The sum of property `p` over the cells that have these indices along these axes. -/
def sumAt [AddCommMonoid W] (re : V → W) (a : Arr V) (nPix : List ℕ) (at' : List (ℕ × ℕ)) (p : ℕ) : W :=
  (((cells nPix).filter (fun c => decide (At at' c))).map (fun c => re (a.get (c ++ [p])))).sum

/-- The picture shows along its abscissa the axis `d0` and along its ordinate the axis `d1`, and in each place the sum
of the cells that are there (and at the indices `at'` along other axes). -/
structure Shows [AddCommMonoid W] (g : Grid K V) (re : V → W) (a : Arr V) (p d0 d1 : ℕ) (at' : List (ℕ × ℕ))
    (m : Mesh K W) : Prop where
  size : ∀ n0 n1, g.nPix[d0]? = some n0 → g.nPix[d1]? = some n1 → m.xs.length = n0 + 1 ∧ m.ys.length = n1 + 1
  edges : m.centred = false
  value : ∀ (n0 n1 i j : ℕ), g.nPix[d0]? = some n0 → g.nPix[d1]? = some n1 → i < n0 → j < n1 →
    m.val i j = sumAt re a g.nPix ((d0, i) :: (d1, j) :: at') p

/-- The axes of a grid that are not named, in increasing order. -/
def hidden (dim : ℕ) (ax : List ℕ) : List ℕ := (List.range dim).filter (fun d => decide (d ∉ ax))

/-- Entry `j` of `n` entries is the one that python's index `k` means. -/
def Means (n : ℕ) (k : ℤ) (j : ℕ) : Prop := j < n ∧ ((j : ℤ) = k ∨ (j : ℤ) = n + k ∧ k < 0)

/-- The edges that are drawn for `n` cells whose centres have the distance `w` from `x0` on: the outer ones are right,
those between two cells are at the centre of the second one. -/
def drawn [Field K] (n : ℕ) (x0 w : K) : List K :=
  (List.range (n + 1)).map (fun k : ℕ =>
    if k = 0 then x0 - w / 2 else if k = n then x0 + ((n : K) - 1 / 2) * w else x0 + (k : K) * w)

/-- The axis has `n` cells, whose centres are at distances `s` from `x0` on: positions, or frequencies in Fourier
space. -/
def CentresOf [Field K] (g : Grid K V) (d n : ℕ) (x0 s : K) : Prop :=
  ∃ w c, Verif.Map.Spec.AxisIs g d n w c ∧ 2 ≤ n ∧
    (g.fourier.getD d false = false → x0 = c - n * w / 2 + w / 2 ∧ s = w) ∧
    (g.fourier.getD d false = true → x0 = -((n / 2 : ℕ) : K) / (n * w) ∧ s = 1 / (n * w))

/-- The middles of the slides as they are written in the titles: for positions the lower end of the cell. -/
def titleOf [Field K] (fourier : Bool) (x0 s : K) : K := if fourier then x0 else x0 - s / 2

end Verif.Pic.Spec
