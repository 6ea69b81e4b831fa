import Verif.Model.Ready

/-!
# What the ready-made properties are supposed to be
-/

namespace Verif.Ready.Spec

open Verif.Gal (Fn Rng World YFit)
open Verif.Handler (Name State hasProperty returnProperty)

variable {K G : Type} [Field K] [LinearOrder K]

/-- A halo (masses in Msun, rates in Msun/yr) and its random numbers: a normally distributed one and one between 0
and 1. -/
structure Halo (K : Type) where
  mass : K
  sfr : K
  redshift : K
  normal : K
  uniform : K

/-- Scatter of `s` dex around `x`. -/
def dex (fn : Fn K) (s x n : K) : K := x * fn.pow 10 (s * n)

/-- Scatter of `s` dex that leaves the mean unchanged. -/
def dexMean (fn : Fn K) (s x n : K) : K := x / fn.pow 10 (s ^ 2 * fn.ln10 / 2) * fn.pow 10 (s * n)

/-- Infrared luminosity in solar luminosities for a star formation rate (Kennicutt). -/
def lir (sfr : K) : K := sfr * 10 ^ 10

/-- A solar luminosity in units of 10^34 W. -/
def sun : K := 3828 / 1000 / 10 ^ 8

/-- The luminosity, star formation rate or stellar mass of a halo. -/
def value (E : Env K) : Which → Halo K → K
  | .coSled, _ => 0
  | .liCo, g => dexMean E.fn (3 / 10)
      (E.fn.pow 10 ((E.fn.log10 (lir g.sfr) + 174 / 100) / (137 / 100)) * (49 / 10 ^ 6)) g.normal
  | .lidzCo, g => if g.uniform < 1 / 10 then 2800 * (g.mass / 10 ^ 8) else 0
  | .pullenCo, g => if min (1 / 10 / E.age g.redshift) 1 < g.uniform then 0 else 10 ^ 6 * g.mass / (5 * 10 ^ 11)
  | .keatingCo, g => if g.mass < 10 ^ 10 then 0 else dex E.fn (3 / 10) (63 / 10 ^ 8 * g.mass) g.normal
  | .gaoHcn, g => dexMean E.fn (3 / 10)
      (E.fn.pow 10 (E.fn.log10 (lir g.sfr) - 29 / 10) * (22 / 10 ^ 6)) g.normal
  | .breysseHcn, g => if g.uniform < 1 / 10 then 17 / 10 ^ 16 * E.fn.pow g.mass (167 / 100) else 0
  | .deloozeFir, g => dex E.fn (42 / 100) (E.fn.pow 10 ((E.fn.log10 g.sfr + 699 / 100) / (101 / 100))) g.normal
  | .uzgilFir, g => dex E.fn (4 / 10)
      (E.fn.pow 10 (89 / 100 * E.fn.log10 (lir g.sfr * sun) - 244 / 100) / sun) g.normal
  | .spinoglioFir, g => dex E.fn (4 / 10)
      (E.fn.pow 10 (89 / 100 * E.fn.log10 (lir g.sfr * sun) - 267 / 100) / sun) g.normal
  | .schaererCii, g => dex E.fn (4 / 10) (E.fn.pow 10 (117 / 100 * E.fn.log10 g.sfr + 661 / 100)) g.normal
  | .yangCii, g =>
    let f := E.yang "CII" g.redshift
    let x := g.mass / E.fn.pow 10 f.m1
    let duty := if g.redshift < 4 then
        (1 + E.fn.pow (g.mass / E.fn.pow 10 (1173 / 100 + 6634 / 10000 * g.redshift))
          (137 / 100 - 190 / 1000 * g.redshift + 215 / 10000 * g.redshift ^ 2))⁻¹
      else 1
    if duty < g.uniform then 0
    else dex E.fn f.sig (2 * E.fn.pow 10 f.n * g.mass * (E.fn.pow x (-f.a) + E.fn.pow x f.b)⁻¹) g.normal
  | .padmanabhanCii, g =>
    E.fn.pow (g.mass / (239 / 10 ^ 7)) (49 / 100) * E.fn.exp (-(419 * 10 ^ 9) / g.mass) *
      E.fn.pow (E.fn.pow (1 + g.redshift) (27 / 10) / (1 + E.fn.pow ((1 + g.redshift) / (29 / 10)) (56 / 10)))
        (179 / 100)
  | .zhaoNii, g => dex E.fn (4 / 10) (E.fn.pow 10 ((E.fn.log10 (lir g.sfr) - 451 / 100) / (95 / 100))) g.normal
  | .behrooziSfr, g => dexMean E.fn (3 / 10) (E.sfrTable g.redshift g.mass) g.normal
  | .behrooziMass, g => dexMean E.fn (3 / 10) (E.massTable g.redshift g.mass) g.normal

/-- The normally distributed numbers: of the generator of the function, for the tables of Behroozi et al. of the
generator of `log10normal`. -/
def normals (R : Rng K G) (w : World G) (n : ℕ) : Which → List K
  | .behrooziSfr | .behrooziMass => (R.normal n w.deflt).1
  | _ => (R.normal n w.own).1

/-- The numbers between 0 and 1: of the generator of the function, for `yang22` of the global one. -/
def uniforms (R : Rng K G) (w : World G) (n : ℕ) : Which → List K
  | .yangCii => (R.uniform n w.glob).1
  | _ => (R.uniform n w.own).1

/-- A property of the `n` selected halos of a snapshot or lightcone, without factors of h. -/
def Column (s : State K) (useAll : Bool) (n : ℕ) (k : Name) (vals : List K) : Prop :=
  vals.length = n ∧ hasProperty s k = true ∧ returnProperty s k useAll (some false) = .ok (some (vals.map some))

/-- A number that belongs to the snapshot, for all its halos. -/
def Number (s : State K) (n : ℕ) (k : Name) (vals : List K) : Prop :=
  hasProperty s k = false ∧ ∃ x, s.extra.get? k = some x ∧ vals = List.replicate n x

/-- The properties that depend on the star formation rate; the others depend on the mass. -/
def byRate (p : Which) : Prop :=
  p ∈ [.coSled, .liCo, .gaoHcn, .deloozeFir, .uzgilFir, .spinoglioFir, .schaererCii, .zhaoNii]

instance (p : Which) : Decidable (byRate p) := by unfold byRate; infer_instance

/-- The properties that depend on the redshift. -/
def byRedshift (p : Which) : Prop := p ∈ [.pullenCo, .yangCii, .padmanabhanCii, .behrooziSfr, .behrooziMass]

instance (p : Which) : Decidable (byRedshift p) := by unfold byRedshift; infer_instance

/-- What is needed for a ready-made property is there, under the names given by `kw_remap`: the star formation rates
or the masses, the redshifts (of each halo, or one for all of them) and the cosmology. -/
structure Inputs (s : State K) (useAll : Bool) (remap : PyDict Name Name) (n : ℕ) (p : Which)
    (mass sfr redshift : List K) : Prop where
  rate : byRate p → Column s useAll n ((remap.get? "sfr").getD "sfr") sfr
  mass : ¬ byRate p → Column s useAll n ((remap.get? "mass").getD "mass") mass
  redshift : byRedshift p → Column s useAll n ((remap.get? "redshift").getD "redshift") redshift ∨
    Number s n ((remap.get? "redshift").getD "redshift") redshift
  cosmo : p = .pullenCo → ∃ x, Number s n ((remap.get? "cosmo").getD "cosmo") x

/-- Name and units of a ready-made property with one value per halo. -/
def label : Which → Name × String
  | .coSled => ("", "")
  | .liCo | .lidzCo | .pullenCo | .keatingCo => ("LCO", "Lsun")
  | .gaoHcn | .breysseHcn => ("LHCN", "Lsun")
  | .deloozeFir | .uzgilFir | .spinoglioFir => ("Lfir", "Lsun")
  | .schaererCii | .yangCii | .padmanabhanCii => ("LCII", "Lsun")
  | .zhaoNii => ("LNII", "Lsun")
  | .behrooziSfr => ("sfr", "Msun/yr")
  | .behrooziMass => ("stellar mass", "Msun")

/-- The inputs of a ready-made property. -/
def Needs (p : Which) (k : Name) : Prop :=
  (byRate p ∧ k = "sfr") ∨ (¬ byRate p ∧ k = "mass") ∨ (byRedshift p ∧ k = "redshift") ∨
    (p = .pullenCo ∧ k = "cosmo")

/-- The halos. -/
def halo (R : Rng K G) (w : World G) (n : ℕ) (p : Which) (mass sfr redshift : List K) (i : ℕ) : Halo K :=
  ⟨mass.getD i 0, sfr.getD i 0, redshift.getD i 0, (normals R w n p).getD i 0, (uniforms R w n p).getD i 0⟩

end Verif.Ready.Spec
