import Verif.Model.Instrument

/-!
# What it means that a field fits an instrument

Written from the documentation of `Instrument` and `add_field`: the pixels of a field are not larger than the best
resolution of the instrument, and the units of its axes and of its values are those of the instrument, as far as both
say what their units are.
-/

namespace Verif.Inst.Spec
variable {F D O X G B M Q K : Type}

/-- The pixels are at most as large as the best resolution, where one is given. -/
structure Sharp [LE K] (spatial spectral : Option K) (g : Field X G K) : Prop where
  sky : ∀ r, spatial = some r → ∀ i < 2, ∀ p, g.pixel[i]? = some p → p ≤ r
  line : ∀ r, spectral = some r → ∀ p, g.pixel[2]? = some p → p ≤ r

/-- Two units are the same known unit, if both are given. -/
def SameUnit (known : List String) (u v : Option String) : Prop :=
  ∀ x y, u = some x → v = some y → x = y ∧ x ∈ known

/-- A cube on the sky with the units of the instrument. -/
structure Suits (x : Setup F D K) (g : Field X G K) : Prop where
  data : g.active = true
  plain : g.fourier = false
  cube : g.ndim = 3
  first : SameUnit ["rad", "deg", "arcmin", "arcsec"] (g.axunits[0]?).join x.spatialUnit
  second : SameUnit ["rad", "deg", "arcmin", "arcsec"] (g.axunits[1]?).join x.spatialUnit
  third : SameUnit ["GHz", "Hz", "m", "mm", "um"] (g.axunits[2]?).join x.spectralUnit

/-- The values of a property have the unit of the instrument. -/
def SuitsFlux (x : Setup F D K) (g : Field X G K) (i : ℕ) : Prop :=
  SameUnit ["Jy", "mJy"] (g.gridunits[i]?).join x.fluxUnit

/-- The instrument still has the resolution and the units it was made with. -/
structure SameInstrument (x : Setup F D K) (s : State F D O X G M K) : Prop where
  spatial : s.bestSpatial = x.bestSpatial
  spectral : s.bestSpectral = x.bestSpectral
  spatialUnit : s.spatialUnit = x.spatialUnit
  spectralUnit : s.spectralUnit = x.spectralUnit
  fluxUnit : s.fluxUnit = x.fluxUnit

/-- The user changes no grid behind the instrument's back. -/
def NoEdit : Op F D O X G B K Q → Prop
  | .editGrid _ _ => False
  | _ => True

/-- Fields are added with the checks switched on. -/
def Checked : Op F D O X G B K Q → Prop
  | .addField a => a.check = true
  | _ => True

end Verif.Inst.Spec
