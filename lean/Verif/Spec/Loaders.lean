import Verif.Model.Loaders
import Mathlib.Algebra.BigOperators.Group.List.Basic

/-!
# Vocabulary for statements about raw catalogues
-/

namespace Verif.Load.Spec

variable {K : Type}

/-- The values of an array, object by object. -/
def rows : Arr K → List (List K)
  | .one v => v.map (fun x => [x])
  | .many _ r => r

/-- Arrays of the same kind: numbers, or rows of the same width. -/
def SameKind : Arr K → Arr K → Prop
  | .one _, .one _ => True
  | .many w _, .many w' _ => w = w'
  | _, _ => False

/-- The row of zeros of an array of this kind. -/
def zeroRow [Zero K] : Arr K → List K
  | .one _ => [0]
  | .many w _ => List.replicate w 0

/-- The objects of a file, as far as one field is concerned. -/
def objects (f : Chunk K) (name : Name) : List (List K) :=
  match f.fields.get? name with
  | none => []
  | some a => rows a

/-- A group catalogue with the files `chunks`: every file has, for each of the fields, as many values as it
has objects (an empty file need not have the field), all of the kind of the first file's, which has
all the fields. -/
structure Sound (c : Cat K) (chunks : List (Chunk K)) (fields : List Name) : Prop where
  files : c.files = chunks.map some
  number : c.numFiles = chunks.length
  first : ∃ f0 rest, chunks = f0 :: rest ∧ ∀ name ∈ fields, ∃ a0, f0.fields.get? name = some a0 ∧
    ∀ f ∈ chunks, ∀ a, f.fields.get? name = some a → SameKind a0 a
  sizes : ∀ f ∈ chunks, ∀ name ∈ fields, (objects f name).length = f.n
  complete : ∀ f ∈ chunks, 0 < f.n → ∀ name ∈ fields, (f.fields.get? name).isSome

/-- The number of objects in the files. -/
def count (chunks : List (Chunk K)) : ℕ := (chunks.map (·.n)).sum

end Verif.Load.Spec
