import Verif.Spec.GridConv

/-!
# Vocabulary for statements about convolutions with a source for each channel
-/

namespace Verif.Map.Spec

variable {V : Type}

/-- The convolution along the first axes in one channel `e` (the position on the other axes), with the source of this
channel. -/
def smearIn [Add V] [Mul V] [Zero V] (t s : Arr V) (n1 ss c e : List ℕ) (p q : ℕ) : V :=
  ((allCells n1).map (fun c' =>
    match spreads ss c c' with
    | some o => cell t (c' ++ e) p * cell s (o ++ e) q
    | none => 0)).sum

variable {K : Type}

/-- The grid is a map in real space with data and axes of `n1` and then `n2` cells; the source has data, `ss` cells on
the axes asked for, which are the first ones, and the same channels as the grid on the others; the padding is not
negative and given as a number or an array. -/
structure Channelled [Field K] [LinearOrder K] (g s : Grid K V) (a b : Arr V) (n1 n2 ss ax : List ℕ) (pad : PadArg) :
    Prop where
  regular : Regular g
  floats : Floats g
  active : g.grid = some a
  source : s.grid = some b
  cells : g.nPix = n1 ++ n2
  shape : b.shape = ss ++ n2 ++ [s.nProps]
  real : ∀ f ∈ g.fourier, f = false
  map : g.isPow = false
  length : ss.length = n1.length
  low : 1 ≤ ss.length
  axes : ax.Perm (List.range ss.length)
  notList : ∀ l, pad ≠ .list l
  padLength : (askedPad ss.length pad).length = ss.length
  aligned : Aligned ax (askedPad ss.length pad)
  padPos : ∀ p ∈ askedPad ss.length pad, 0 ≤ p

end Verif.Map.Spec
