import Mathlib.Analysis.SpecialFunctions.Pow.Real
import Verif.Spec.GridAdd

/-!
# Vocabulary for statements about point spread functions
-/

namespace Verif.Map.Spec

noncomputable section

/-- A Gaussian profile with full width `f` at half maximum: one in the middle, one half at the distance `f / 2`
from it (see `C101_width`). -/
def bell (f x : ℝ) : ℝ := (1 / 2 : ℝ) ^ ((2 * x / f) ^ 2)

/-- The product of the profiles of the axes. -/
def bells (fs xs : List ℝ) : ℝ := (List.zipWith bell fs xs).prod

/-- The centre of cell `j` of an axis of `n` cells of width `w` around zero. -/
def middle (n : ℕ) (w : ℝ) (j : ℕ) : ℝ := ((j : ℝ) + 1 / 2 - n / 2) * w

/-- The centre of a cell of a grid around zero. -/
def place : List ℕ → List ℝ → List ℕ → List ℝ
  | n :: ns, w :: ws, j :: c => middle n w j :: place ns ws c
  | _, _, _ => []

/-- The documented side lengths or pixel sizes: one for all axes, or one for each. -/
def lengths (d : ℕ) (l : List ℝ) : List ℝ := if l.length = 1 then List.replicate d (l.headD 0) else l

/-- The documented side lengths of a point spread function: six times the width unless given. -/
def psfSide (fs : List ℝ) (side : Option (NArr ℝ)) : List ℝ :=
  match side with
  | none => fs.map (fun f => 6 * f)
  | some s => lengths fs.length s.vals

/-- A grid around zero with these pixel sizes whose extents are the side lengths up to one pixel. -/
structure Around (g : Grid ℝ ℝ) (ws sides : List ℝ) : Prop where
  regular : Regular g
  dim : g.dim = ws.length
  nProps : g.nProps = 1
  axis : ∀ (i : ℕ) (w s : ℝ), ws[i]? = some w → sides[i]? = some s →
    ∃ n, AxisIs g i n w 0 ∧ s - w / 20 ≤ n * w ∧ n * w < s + 19 / 20 * w

/-- The cell on the other side of the middle on axis `i`. -/
def mirror (ns : List ℕ) (i : ℕ) (c : List ℕ) : List ℕ := c.modify i (fun j => ns.getD i 0 - 1 - j)

/-- Frequencies whose extent is that of equally spaced channels with the distance of the first two. -/
def Channels (spec : List ℝ) : Prop :=
  ∃ s0 s1 rest mx mn, spec = s0 :: s1 :: rest ∧ s0 ≠ s1 ∧ mx ∈ spec ∧ mn ∈ spec ∧
    (∀ s ∈ spec, mn ≤ s ∧ s ≤ mx) ∧ mx - mn = ((spec.length : ℝ) - 1) * |s1 - s0|

/-- Equally spaced channels, upwards or downwards. -/
def even (n : ℕ) (a w : ℝ) : List ℝ := (List.range n).map (fun (k : ℕ) => a + (k : ℝ) * w)

/-- The side lengths that `SpectralPSF` uses: `m` is the greatest of `spec0 / spec`. -/
def specSide (fs : List ℝ) (m : ℝ) (side : Option (NArr ℝ)) : List ℝ :=
  match side with
  | none => fs.map (fun f => 3 * f * m)
  | some s => lengths fs.length s.vals

/-- The widths at frequency `s`. -/
def widths (fs : List ℝ) (spec0 e s : ℝ) : List ℝ := fs.map (fun f => f * (spec0 / s) ^ e)

/-- A grid with spatial axes around zero and a spectral axis of `n` channels. -/
structure Spectral (g : Grid ℝ ℝ) (ns : List ℕ) (ws sides : List ℝ) (n : ℕ) (w c : ℝ) : Prop where
  nPix : g.nPix = ns ++ [n]
  length : ns.length = ws.length
  nProps : g.nProps = 1
  axis : ∀ (i : ℕ) (w s : ℝ), ws[i]? = some w → sides[i]? = some s →
    ∃ m, 2 ≤ m ∧ ns[i]? = some m ∧ g.axes[i]? = some (edges m w 0) ∧ g.centers[i]? = some (middles m w 0) ∧
      s - w / 20 ≤ m * w ∧ m * w < s + 19 / 20 * w
  channels : g.centers[ns.length]? = some (middles n w c)

end

end Verif.Map.Spec
