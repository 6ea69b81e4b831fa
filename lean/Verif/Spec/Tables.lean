import Verif.Model.Tables
import Verif.Spec.Format

/-!
# What the field tables promise

A property is documented if there is a line for it in one of the tables, whatever the other lines
are; its value is the value of the raw field and column of that line, with all the unit conversions
listed for the raw field.
-/

namespace Verif.Format.Spec

variable {K : Type} [Field K]

/-- The documented properties. -/
def Documented (k : Kind) (e : Entry) : Prop :=
  Stored (basicLines k) (dmLines k ++ matterLines k) e

/-- The value of a property for halo `j` of the raw data, in the units of the raw data. -/
def rawValue (raw : Raw K) (e : Entry) (j : ℕ) : Option (Cell K) :=
  match raw.fields.get? e.key with
  | none => none
  | some c =>
    if e.width > 1 then
      match row c j with
      | some (.vec l) => (l[e.column]?).map .num
      | _ => none
    else row c j

/-- A number, or every number of a row, multiplied. -/
def Cell.times (a : K) : Cell K → Cell K
  | .num x => .num (x * a)
  | .vec l => .vec (l.map (· * a))

/-- What a conversion multiplies by: `10^10 Msun` to `Msun`, kpc to Mpc, the unit of accretion rates,
and masses in `Msun` to `Msun/h`. -/
def factor (h : K) : Conv → K
  | .power10 => 10 ^ 10
  | .kpcToMpc => 1 / 1000
  | .bhMassUnit => 978 / 1000
  | .applyH => h

/-- The product of all conversions listed for a raw field. -/
def factorOf (k : Kind) (h : K) (key : Name) : K :=
  (((convLines k).filter (fun p => decide (p.1 = key))).map (fun p => factor h p.2)).prod

/-- The documented value of a property. -/
def documentedValue (k : Kind) (h : K) (raw : Raw K) (e : Entry) (j : ℕ) : Option (Cell K) :=
  (rawValue raw e j).map (Cell.times (factorOf k h e.key))

/-- What a number of the Illustris raw data has to be multiplied by so that it is in the unit of the
label.  Raw masses are in `10^10 Msun/h`, raw lengths in `kpc/h`; all other raw numbers already are in
the units of the labels. -/
def toLabel : String → K
  | "Msun/h" => 10 ^ 10
  | "Mpc/h" => 1 / 1000
  | "Mpc/h km/s" => 1 / 1000
  | _ => 1

/-- The power of `h` that a label contains: numbers labelled `Mpc/h` have to be multiplied by `h⁻¹` to
be in Mpc.  In `Msun/h / (Gyr/h)` the powers cancel. -/
def powerInLabel : String → ℤ
  | "Mpc/h" => -1
  | "kpc/h" => -1
  | "Msun/h" => -1
  | "Mpc/h km/s" => -1
  | _ => 0

/-- The raw fields of UniverseMachine and Uchuu that are in `Msun` without `h`: the masses of stars
and, in the text catalogues of Bolshoi-Planck, also those of halos. -/
def inSolarMasses (k : Kind) (key : Name) : Bool :=
  key = "sm" || key = "icl" || key = "obs_sm" || (k = .umBolshoi && (key = "m" || key = "mp"))

end Verif.Format.Spec
