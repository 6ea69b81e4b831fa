import Verif.Model.Grid
import Mathlib.Algebra.Ring.Defs

/-!
# Model of `Grid.convolve` (`simim/map/gridder.py:1055-1146`)

`scipy.signal.fftconvolve` is modelled by the sum it computes (exactly).  Simplifications: there is at least one
property (an array without elements gives an array without axes); values are not NaN (one NaN spreads over the
whole map); axis numbers are not negative (refused, line 1118).
-/

namespace Verif.Map

open Verif.Sim (Err)

variable {K V : Type}

/-- The pairs of indices of the two arrays that `fftconvolve(a, b, axes=ax, mode='same')` multiplies for index `k`
of the result along one axis, of lengths `s1` and `s2`.  Along the axes of the convolution the sum of the indices is
`k + (s2 - 1) / 2`; axes where one of the arrays has length one are not transformed, but this gives the same.  Along
the others the arrays are multiplied element by element (an axis of length one is repeated), and the result is cut to
length `s1` around the middle. -/
def convPairs (conv : Bool) (s1 s2 k : ℕ) : List (ℕ × ℕ) :=
  if conv then
    (List.range s1).filterMap (fun j =>
      if j ≤ k + (s2 - 1) / 2 ∧ k + (s2 - 1) / 2 - j < s2 then some (j, k + (s2 - 1) / 2 - j) else none)
  else if s1 = s2 then [(k, k)]
  else if s2 = 1 then [(k, 0)]
  else [(0, (s2 - 1) / 2)]

/-- The sum over the pairs of all axes. -/
def convSum [Add V] [Zero V] : List (Bool × ℕ × ℕ) → List ℕ → (List ℕ → List ℕ → V) → V
  | q :: qs, k :: ks, f =>
    ((convPairs q.1 q.2.1 q.2.2 k).map (fun p => convSum qs ks (fun x y => f (p.1 :: x) (p.2 :: y)))).sum
  | _, _, f => f [] []

/-- `scipy.signal.fftconvolve(a, b, axes=ax, mode='same')`. -/
def fftConv [Add V] [Mul V] [Zero V] (a b : Arr V) (ax : List ℕ) : Except Err (Arr V) :=
  if ax = [] ∨ ¬ ax.Nodup then .error .valueError
  else if ∃ q ∈ (a.shape.zip b.shape).zipIdx, q.2 ∉ ax ∧ q.1.1 ≠ q.1.2 ∧ q.1.1 ≠ 1 ∧ q.1.2 ≠ 1 then
    .error .valueError
  else .ok ⟨a.shape, fun i =>
    convSum ((a.shape.zip b.shape).zipIdx.map (fun q => (decide (q.2 ∈ ax), q.1.1, q.1.2))) i
      (fun x y => a.get x * b.get y)⟩

/-- The argument `pad`: an integer, a list (or tuple), or an array. -/
inductive PadArg where
  | none
  | int (p : ℤ)
  | list (l : List ℤ)
  | array (l : List ℤ)
deriving DecidableEq

/-- The source with as many axes as the grid: axes of length one before the last, lines 1100-1110. -/
def convSource (b : Arr V) (nsp : ℕ) : Arr V :=
  let d := b.shape.length - 1
  ⟨b.shape.take d ++ List.replicate nsp 1 ++ b.shape.drop d, fun i => b.get (i.take d ++ i.drop (d + nsp))⟩

/-- What is needed for the convolution: the array of the source, the axes, the amounts of padding and whether they
can be negated (`-pad`). -/
structure ConvPlan (V : Type) where
  source : Arr V
  ax : List ℕ
  pad : List ℤ
  negate : Bool

/-- The axes, lines 1112-1118. -/
def convAxes (dim nsp : ℕ) (ax : Option (List ℕ)) : Except Err (List ℕ) :=
  match ax with
  | none => .ok (List.range (dim - nsp))
  | some l => if ∃ a ∈ l, dim ≤ a then .error .valueError else .ok l

/-- The amounts of padding for `k` axes, lines 1121-1129. -/
def convPad (k : ℕ) (pad : PadArg) : Except Err (List ℤ × Bool) :=
  match pad with
  | .none => .ok (List.replicate k 0, true)
  | .int p => .ok (List.replicate k p, true)
  | .list l => if l.length ≠ k then .error .valueError else .ok (l, false)
  | .array l => if l.length ≠ k then .error .valueError else .ok (l, true)

/-- The checks and preparations, lines 1088-1129. -/
def convPlan (g source : Grid K V) (ax : Option (List ℕ)) (pad : PadArg) : Except Err (ConvPlan V) :=
  match g.grid with
  | none => .error .valueError                                                 -- lines 1088-1089
  | some a =>
    if true ∈ g.fourier then .error .valueError                                -- lines 1090-1091
    else
      match source.grid with
      | none => .error .valueError                                             -- lines 1092-1093
      | some b =>
        if g.isPow then .error .valueError                                     -- lines 1094-1095
        else if a.shape.length < b.shape.length then .error .valueError        -- lines 1098-1099
        else
          match convAxes g.dim (a.shape.length - b.shape.length) ax with
          | .error e => .error e
          | .ok ax =>
            match convPad ax.length pad with
            | .error e => .error e
            | .ok (p, negate) => .ok ⟨convSource b (a.shape.length - b.shape.length), ax, p, negate⟩

/-- Padding, convolution, removal of the padding: lines 1133-1135, 1142-1144.  `-pad` raises for lists. -/
def convRun [Add V] [Mul V] [Zero V] [Field K] [LinearOrder K] [FloorRing K] (g : Grid K V) (P : ConvPlan V) :
    Grid K V × Except Err Unit :=
  match g.padBy P.ax P.pad 0 with
  | (g1, .error e) => (g1, .error e)
  | (g1, .ok _) =>
    match g1.grid with
    | none => (g1, .error .typeError)
    | some a =>
      match fftConv a P.source P.ax with
      | .error e => (g1, .error e)
      | .ok r =>
        let g2 : Grid K V := { g1 with grid := some r }
        if P.negate then g2.padBy P.ax (P.pad.map (- ·)) 0
        else (g2, .error .typeError)

/-- `convolve(source, ax, in_place=True, pad)`, lines 1055-1137. -/
def Grid.convolve [Add V] [Mul V] [Zero V] [Field K] [LinearOrder K] [FloorRing K] (g source : Grid K V)
    (ax : Option (List ℕ) := none) (pad : PadArg := .none) : Grid K V × Except Err Unit :=
  match convPlan g source ax pad with
  | .error e => (g, .error e)
  | .ok P => convRun g P

/-- `convolve(source, ax, in_place=False, pad)`, lines 1139-1146; the grid itself is not changed. -/
def Grid.convolveNew [Add V] [Mul V] [Zero V] [Field K] [LinearOrder K] [FloorRing K] (g source : Grid K V)
    (ax : Option (List ℕ) := none) (pad : PadArg := .none) : Except Err (Grid K V) :=
  match convPlan g source ax pad with
  | .error e => .error e
  | .ok P =>
    match g.copy none with
    | .error e => .error e
    | .ok c =>
      match convRun c P with
      | (_, .error e) => .error e
      | (c', .ok _) => .ok c'

end Verif.Map
