import Mathlib.Algebra.Order.Floor.Ring
import Mathlib.Algebra.Order.Field.Basic
import Mathlib.Data.List.Forall2
import Verif.Model.Exc
import Verif.Model.SnapMeta

/-!
# numpy arrays as used by `simim/map/gridder.py`

An array has a shape and a value for each index; values at indices outside the shape mean
nothing (statements compare arrays with `Arr.Same`).
-/

namespace Verif.Map

open Verif.Sim (Err)

/-- An n-dimensional array. -/
structure Arr (V : Type) where
  shape : List ℕ
  get : List ℕ → V

/-- An index of an array of this shape: one entry for each axis, below its length. -/
def Valid (shape i : List ℕ) : Prop := List.Forall₂ (· < ·) i shape

instance (shape i : List ℕ) : Decidable (Valid shape i) := by unfold Valid; infer_instance

/-- Equal arrays. -/
def Arr.Same {V : Type} (a b : Arr V) : Prop :=
  a.shape = b.shape ∧ ∀ i, Valid a.shape i → a.get i = b.get i

variable {V : Type}

/-- `np.zeros(shape)`. -/
def zeros [Zero V] (shape : List ℕ) : Arr V := ⟨shape, fun _ => 0⟩

/-- The position of the old cell at index `i` of an array padded by `ps` cells on both sides;
`none` in the padding. -/
def unshift : List ℕ → List ℕ → List ℕ → Option (List ℕ)
  | n :: shape, p :: ps, j :: i =>
    if p ≤ j ∧ j < p + n then (unshift shape ps i).map (fun r => (j - p) :: r) else none
  | _, _, _ => some []

/-- `np.pad(a, [(p, p) for p in ps], constant_values=val)`. -/
def Arr.pad (a : Arr V) (ps : List ℕ) (val : V) : Arr V :=
  ⟨List.zipWith (fun n p => n + 2 * p) a.shape ps,
   fun i => match unshift a.shape ps i with
     | some j => a.get j
     | none => val⟩

/-- `_unpad(a, [(u, u) for u in us])`, `gridder.py:31-38`. -/
def Arr.unpad (a : Arr V) (us : List ℕ) : Arr V :=
  ⟨List.zipWith (fun n u => n - 2 * u) a.shape us,
   fun i => a.get (List.zipWith (· + ·) i us)⟩

/-- `np.take(a, inds, axis=ax)`. -/
def Arr.take (a : Arr V) (inds : List ℕ) (ax : ℕ) : Arr V :=
  ⟨a.shape.set ax inds.length, fun i => a.get (i.set ax (inds.getD (i.getD ax 0) 0))⟩

/-- `np.concatenate((a, b), axis=-1)` for arrays that differ only along the last axis. -/
def Arr.concatLast (a b : Arr V) : Arr V :=
  ⟨a.shape.dropLast ++ [a.shape.getLastD 0 + b.shape.getLastD 0],
   fun i =>
    let k := i.getLastD 0
    if k < a.shape.getLastD 0 then a.get i
    else b.get (i.dropLast ++ [k - a.shape.getLastD 0])⟩

/-- `a[..., tuple(props)]`. -/
def Arr.selectLast (a : Arr V) (props : List ℕ) : Arr V :=
  ⟨a.shape.dropLast ++ [props.length],
   fun i => a.get (i.dropLast ++ [props.getD (i.getLastD 0) 0])⟩

/-- One addition of `np.add.at`: add `v` to the cell with index `i`. -/
def Arr.addAt [Add V] (a : Arr V) (i : List ℕ) (v : V) : Arr V :=
  ⟨a.shape, fun j => if j = i then a.get j + v else a.get j⟩

/-- `np.add.at(a, inds, vals)`: the additions one after the other. -/
def Arr.addAll [Add V] (a : Arr V) (l : List (List ℕ × V)) : Arr V :=
  l.foldl (fun b p => b.addAt p.1 p.2) a

/-! ## One-dimensional numeric arrays with their dtype -/

/-- A one-dimensional array of numbers; `isInt` if its dtype is an integer type. -/
structure NArr (K : Type) where
  isInt : Bool
  vals : List K
  deriving DecidableEq

section
variable {K : Type} [Field K] [LinearOrder K] [FloorRing K]

/-- Conversion to an integer type: truncation towards zero. -/
def trunc (x : K) : K := if 0 ≤ x then ((⌊x⌋ : ℤ) : K) else ((⌈x⌉ : ℤ) : K)

/-- `a[i] = x`: an integer array keeps only the integer part. -/
def NArr.put (a : NArr K) (i : ℕ) (x : K) : NArr K :=
  { a with vals := a.vals.set i (if a.isInt then trunc x else x) }

/-- `np.rint`: the nearest integer, ties to even. -/
def rint (y : K) : ℤ :=
  if y - ⌊y⌋ < 1 / 2 then ⌊y⌋
  else if 1 / 2 < y - ⌊y⌋ then ⌊y⌋ + 1
  else if ⌊y⌋ % 2 = 0 then ⌊y⌋ else ⌊y⌋ + 1

/-- `np.round(x, 1)`. -/
def round1 (x : K) : K := (rint (10 * x) : K) / 10

/-- `np.fft.fftfreq(n, d)`. -/
def fftfreq (n : ℕ) (d : K) : List K :=
  (List.range n).map (fun k : ℕ =>
    (if k < (n - 1) / 2 + 1 then (k : K) else (k : K) - n) * (1 / (n * d)))

end

/-- `np.fft.fftshift` of a list. -/
def fftshift {α : Type} [Zero α] (l : List α) : List α :=
  (List.range l.length).map (fun k => l.getD ((k + (l.length - l.length / 2)) % l.length) 0)

end Verif.Map
