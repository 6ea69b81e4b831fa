import Verif.Model.GridUnits

/-!
# What a caller who rescales axes expects of their units
-/

namespace Verif.Map.Spec

/-- The call asks for the unit `u` on axis `i`: one unit is for all the axes given, a list has one unit for each of
the axes, in the same order. -/
inductive Asks : UnitArg → List ℕ → ℕ → Option String → Prop where
  | none {ax : List ℕ} {i : ℕ} : i ∈ ax → Asks .none ax i Option.none
  | text {ax : List ℕ} {i : ℕ} {u : String} : i ∈ ax → Asks (.text u) ax i (some u)
  | many {ax : List ℕ} {i j : ℕ} {u v t : Option String} {rest : List (Option String)} :
      ax[j]? = some i → (u :: v :: rest)[j]? = some t → Asks (.many u v rest) ax i t

/-- The label of a Fourier axis. -/
def inverse (u : Option String) : Option String := u.map (fun t => t ++ "^-1")

/-- The axes have the units that were asked for, their Fourier axes the inverse units, and nothing else changed. -/
structure Relabelled {K V : Type} (g g' : Grid K V) (arg : UnitArg) (ax : List ℕ) : Prop where
  real : ∀ i u, Asks arg ax i u → g'.axunits[i]? = some u
  fourier : ∀ i u, Asks arg ax i u → g'.faxunits[i]? = some (inverse u)
  keep : ∀ i, (∀ u, ¬ Asks arg ax i u) → g'.axunits[i]? = g.axunits[i]?
  fkeep : ∀ i, (∀ u, ¬ Asks arg ax i u) → g'.faxunits[i]? = g.faxunits[i]?

/-- The number of units is right: none, one, or one for each axis. -/
def RightNumber : UnitArg → List ℕ → Prop
  | .many _ _ rest, ax => rest.length + 2 = ax.length
  | _, _ => True

/-- There is a label for every axis. -/
structure HasLabels {K V : Type} (g : Grid K V) : Prop where
  real : g.axunits.length = g.dim
  fourier : g.faxunits.length = g.dim

/-- A unit can be stored in entries of this many letters; `None` only if there is no limit. -/
def HasRoom : Option ℕ → Option String → Prop
  | none, _ => True
  | some w, some u => u.length ≤ w
  | some _, none => False

end Verif.Map.Spec
