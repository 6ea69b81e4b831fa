import Verif.Model.RawFiles

/-!
# Vocabulary for statements about raw data files
-/

namespace Verif.Raw.Spec

/-- Every missing file of the list is there, completely; everything else is as before. -/
def Completed (d d' : Disk) (fs : List Path) : Prop :=
  ∀ f, d' f = if f ∈ fs ∧ d f = none then some .whole else d f

/-- Every file of the list is there, completely; everything else is as before. -/
def Replaced (d d' : Disk) (fs : List Path) : Prop :=
  ∀ f, d' f = if f ∈ fs then some .whole else d f

/-- The disk after a call that was interrupted after `k` steps. -/
def interrupted (steps : Disk → List Step) (k : ℕ) (d : Disk) : Disk := after d ((steps d).take k)

/-- The disk after any number of calls (the functions in `calls`), each interrupted at some point or not. -/
inductive Later (calls : (Disk → List Step) → Prop) : Disk → Disk → Prop
  | same (d) : Later calls d d
  | call (d d' : Disk) (steps : Disk → List Step) (k : ℕ) (h : calls steps) (hl : Later calls d d') :
      Later calls d (interrupted steps k d')

/-- The text `pat` occurs in `t`. -/
def Occurs (pat t : Path) : Prop := pat <:+: t

/-- The file `f` is the folder or file `w`, or lies in it. -/
def Inside (w f : Path) : Prop := f = w ∨ ∃ rest, f = w ++ '/' :: rest

end Verif.Raw.Spec
