import Verif.Model.Relation
import Mathlib.Analysis.SpecialFunctions.Log.Base

/-!
# Model of the parameters of the stellar mass function (`simim/galprops/sfr_bethermin17.py:14-57`, `227-241`)

Decimal numbers are exact here, distances and volumes of the two cosmologies are functions of the redshift.
-/

namespace Verif.Rel

/-- The entries of a dictionary `pars_...`, `sfr_bethermin17.py:24-36`. -/
structure SmfBin where
  mstar : ℝ
  alpha1 : ℝ
  phistar1 : ℝ
  alpha2 : ℝ
  phistar2 : ℝ
  zmin : ℝ
  zmax : ℝ

/-- `bins_use`, `sfr_bethermin17.py:24-38`. -/
noncomputable def binsUse : List SmfBin :=
  [⟨10 ^ (1064 / 100 : ℝ), -43 / 100, 418 / 100000, -150 / 100, 74 / 100000, 25 / 1000, 6 / 100⟩,
   ⟨10 ^ (1083 / 100 : ℝ), -95 / 100, 10 ^ (-263 / 100 : ℝ), -182 / 100, 10 ^ (-401 / 100 : ℝ), 2 / 10, 5 / 10⟩,
   ⟨10 ^ (1076 / 100 : ℝ), -57 / 100, 10 ^ (-266 / 100 : ℝ), -149 / 100, 10 ^ (-324 / 100 : ℝ), 5 / 10, 8 / 10⟩,
   ⟨10 ^ (1068 / 100 : ℝ), -33 / 100, 10 ^ (-257 / 100 : ℝ), -149 / 100, 10 ^ (-324 / 100 : ℝ), 8 / 10, 11 / 10⟩,
   ⟨10 ^ (1066 / 100 : ℝ), 19 / 100, 10 ^ (-288 / 100 : ℝ), -149 / 100, 10 ^ (-324 / 100 : ℝ), 11 / 10, 15 / 10⟩,
   ⟨10 ^ (1051 / 100 : ℝ), 82 / 100, 64 / 100000, -128 / 100, 969 / 1000000, 15 / 10, 2⟩,
   ⟨10 ^ (1060 / 100 : ℝ), 7 / 100, 45 / 100000, -157 / 100, 295 / 1000000, 2, 25 / 10⟩,
   ⟨10 ^ (1059 / 100 : ℝ), -8 / 100, 21 / 100000, -167 / 100, 228 / 1000000, 25 / 10, 3⟩,
   ⟨10 ^ (1083 / 100 : ℝ), 0, 0, -176 / 100, 90 / 1000000, 3, 35 / 10⟩,
   ⟨61 / 100 * 10 ^ (1096 / 100 : ℝ), 0, 0, -163 / 100, 10 ^ (-394 / 100 : ℝ), 35 / 10, 45 / 10⟩,
   ⟨61 / 100 * 10 ^ (1078 / 100 : ℝ), 0, 0, -163 / 100, 10 ^ (-418 / 100 : ℝ), 45 / 10, 55 / 10⟩,
   ⟨61 / 100 * 10 ^ (1049 / 100 : ℝ), 0, 0, -155 / 100, 10 ^ (-416 / 100 : ℝ), 55 / 10, 65 / 10⟩,
   ⟨61 / 100 * 10 ^ (1069 / 100 : ℝ), 0, 0, -188 / 100, 10 ^ (-524 / 100 : ℝ), 65 / 10, 75 / 10⟩]

/-- `zvals`, `sfr_bethermin17.py:49`, for one entry. -/
noncomputable def SmfBin.mid (b : SmfBin) : ℝ := (b.zmin + b.zmax) / 2

/-- `np.interp(1+z, 1+zvals, vals)`, where `vals` has one value for each entry. -/
noncomputable def overBins (vals : SmfBin → ℝ) (z : ℝ) : ℝ :=
  LF.interpD (binsUse.map (fun b => (1 + b.mid, vals b))) (1 + z)

/-- `b17_smfpars`, `sfr_bethermin17.py:227-241`: `ms, a1, p1, a2, p2`.  `dlold`, `vold` are the luminosity
distance and the differential comoving volume of `cosmo_obs`, `dlnew`, `vnew` those of the argument. -/
noncomputable def smfpars (dlold dlnew vold vnew : ℝ → ℝ) (z : ℝ) : ℝ × ℝ × ℝ × ℝ × ℝ :=
  let a1 := overBins (fun b => b.alpha1) z
  let a2 := overBins (fun b => b.alpha2) z
  let p1 := overBins (fun b => b.phistar1 * (vnew b.mid / vold b.mid)⁻¹) z
  let p2 := 10 ^ overBins (fun b => Real.logb 10 (b.phistar2 * (vnew b.mid / vold b.mid)⁻¹)) z
  let ms := 10 ^ overBins (fun b => Real.logb 10 (b.mstar * (dlnew b.mid / dlold b.mid) ^ 2)) z
  (ms, a1, p1, a2, p2)

end Verif.Rel
