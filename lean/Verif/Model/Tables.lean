import Verif.Model.Format
import Mathlib.Algebra.Field.Basic

/-!
# The field tables of the simulations (`simim/siminterface/illustris.py:65-277`,
`universemachine.py:93-194`, `uchuu.py:70-175`)

The tables are transcribed line by line.  They are dictionaries: a key that is written twice keeps the
place of the first and the value of the last line (`lit`).  The dtypes are omitted.
-/

namespace Verif.Format

/-- A dictionary literal. -/
def lit {α : Type} (lines : List (Name × α)) : PyDict Name α :=
  lines.foldl (fun d p => d.set p.1 p.2) []

/-- The kinds of simulation for which there are tables.  `umTest` is `_testbox`; `umBinary` are
`UniverseMachine-SMDPL` and `-MDPL2`. -/
inductive Kind where
  | illustris | illustrisDark | tng | tngDark | umBolshoi | umTest | umBinary | uchuu
  deriving DecidableEq

/-- All kinds. -/
def Kind.all : List Kind :=
  [.illustris, .illustrisDark, .tng, .tngDark, .umBolshoi, .umTest, .umBinary, .uchuu]

/-- `basic_fields`, `illustris.py:65-85`. -/
def illBasic : List (Name × List Sub) :=
  [("SubhaloPos", [⟨"pos_x", "Mpc/h", (-1)⟩, ⟨"pos_y", "Mpc/h", (-1)⟩, ⟨"pos_z", "Mpc/h", (-1)⟩]),
   ("SubhaloHalfmassRad", [⟨"r_hm", "Mpc/h", (-1)⟩]),
   ("SubhaloMass", [⟨"mass", "Msun/h", (-1)⟩]),
   ("SubhaloVel", [⟨"v_x", "km/s", 0⟩, ⟨"v_y", "km/s", 0⟩, ⟨"v_z", "km/s", 0⟩])]

/-- `dm_fields`, `illustris.py:100-124`. -/
def illDm : List (Name × List Sub) :=
  [("SubhaloCM", [⟨"cm_x", "Mpc/h", (-1)⟩, ⟨"cm_y", "Mpc/h", (-1)⟩, ⟨"cm_z", "Mpc/h", (-1)⟩]),
   ("SubhaloMassInMaxRad", [⟨"mass_maxr", "Msun/h", (-1)⟩]),
   ("SubhaloSpin", [⟨"spin_x", "Mpc/h km/s", (-1)⟩, ⟨"spin_y", "Mpc/h km/s", (-1)⟩,
      ⟨"spin_z", "Mpc/h km/s", (-1)⟩]),
   ("SubhaloVelDisp", [⟨"vdisp", "km/s", 0⟩]),
   ("SubhaloVmax", [⟨"vmax", "km/s", 0⟩]),
   ("SubhaloVmaxRad", [⟨"r_vmax", "Mpc/h", (-1)⟩])]

/-- `matter_fields`, `illustris.py:130-215`. -/
def illMatter : List (Name × List Sub) :=
  [("SubhaloBHMass", [⟨"bhmass", "Msun/h", (-1)⟩]),
   ("SubhaloBHMdot", [⟨"bhmdot", "Msun/h / (Gyr/h)", 0⟩]),
   ("SubhaloGasMetallicity", [⟨"met", "None", 0⟩]),
   ("SubhaloGasMetallicityHalfRad", [⟨"met_hr", "None", 0⟩]),
   ("SubhaloGasMetallicityMaxRad", [⟨"met_maxr", "None", 0⟩]),
   ("SubhaloMassType", [⟨"m_gas", "Msun/h", (-1)⟩, ⟨"m_dm", "Msun/h", (-1)⟩,
      ⟨"none", "Msun/h", (-1)⟩, ⟨"m_tracers", "Msun/h", (-1)⟩, ⟨"m_stars_wind", "Msun/h", (-1)⟩,
      ⟨"m_bh", "Msun/h", (-1)⟩]),
   ("SubhaloMassInHalfRad", [⟨"mass_hr", "Msun/h", (-1)⟩]),
   ("SubhaloMassInHalfRadType", [⟨"m_gas_hr", "Msun/h", (-1)⟩, ⟨"m_dm_hr", "Msun/h", (-1)⟩,
      ⟨"none_hr", "Msun/h", (-1)⟩, ⟨"m_tracers_hr", "Msun/h", (-1)⟩,
      ⟨"m_stars_wind_hr", "Msun/h", (-1)⟩, ⟨"m_bh_hr", "Msun/h", (-1)⟩]),
   ("SubhaloMassInMaxRadType", [⟨"m_gas_maxr", "Msun/h", (-1)⟩, ⟨"m_dm_maxr", "Msun/h", (-1)⟩,
      ⟨"none_maxr", "Msun/h", (-1)⟩, ⟨"m_tracers_maxr", "Msun/h", (-1)⟩,
      ⟨"m_stars_wind_maxr", "Msun/h", (-1)⟩, ⟨"m_bh_maxr", "Msun/h", (-1)⟩]),
   ("SubhaloMassInRad", [⟨"mass_2hr", "Msun/h", (-1)⟩]),
   ("SubhaloMassInRadType", [⟨"m_gas_2hr", "Msun/h", (-1)⟩, ⟨"m_dm_2hr", "Msun/h", (-1)⟩,
      ⟨"none_2hr", "Msun/h", (-1)⟩, ⟨"m_tracers_2hr", "Msun/h", (-1)⟩,
      ⟨"m_stars_wind_2hr", "Msun/h", (-1)⟩, ⟨"m_bh_2hr", "Msun/h", (-1)⟩]),
   ("SubhaloSFR", [⟨"sfr", "Msun/yr", 0⟩]),
   ("SubhaloSFRinHalfRad", [⟨"sfr_hr", "Msun/yr", 0⟩]),
   ("SubhaloSFRinMaxRad", [⟨"sfr_maxr", "Msun/yr", 0⟩]),
   ("SubhaloSFRinHalfRad", [⟨"sfr_2hr", "Msun/yr", 0⟩]),
   ("SubhaloStarMetallicity", [⟨"met_stellar", "None", 0⟩]),
   ("SubhaloStarMetallicityHalfRad", [⟨"met_stellar_hr", "None", 0⟩]),
   ("SubhaloStarMetallicityMaxRad", [⟨"met_stellar_maxr", "None", 0⟩]),
   ("SubhaloStellarPhotometrics", [⟨"phot_U", "mag", 0⟩, ⟨"phot_B", "mag", 0⟩,
      ⟨"phot_V", "mag", 0⟩, ⟨"phot_K", "mag", 0⟩, ⟨"phot_g", "mag", 0⟩, ⟨"phot_r", "mag", 0⟩,
      ⟨"phot_i", "mag", 0⟩, ⟨"phot_z", "mag", 0⟩])]

/-- `tng_matter_fields`, `illustris.py:218-245`. -/
def tngMatter : List (Name × List Sub) :=
  [("SubhaloGasMetalFractions", [⟨"metH", "None", 0⟩, ⟨"metHe", "None", 0⟩, ⟨"metC", "None", 0⟩,
      ⟨"metN", "None", 0⟩, ⟨"metO", "None", 0⟩, ⟨"metNe", "None", 0⟩, ⟨"metMg", "None", 0⟩,
      ⟨"metSi", "None", 0⟩, ⟨"metFe", "None", 0⟩, ⟨"metOther", "None", 0⟩]),
   ("SubhaloGasMetalFractionsHalfRad", [⟨"metH_hr", "None", 0⟩, ⟨"metHe_hr", "None", 0⟩,
      ⟨"metC_hr", "None", 0⟩, ⟨"metN_hr", "None", 0⟩, ⟨"metO_hr", "None", 0⟩,
      ⟨"metNe_hr", "None", 0⟩, ⟨"metMg_hr", "None", 0⟩, ⟨"metSi_hr", "None", 0⟩,
      ⟨"metFe_hr", "None", 0⟩, ⟨"metOther_hr", "None", 0⟩]),
   ("SubhaloGasMetalFractionsMaxRad", [⟨"metH_maxr", "None", 0⟩, ⟨"metHe_maxr", "None", 0⟩,
      ⟨"metC_maxr", "None", 0⟩, ⟨"metN_maxr", "None", 0⟩, ⟨"metO_maxr", "None", 0⟩,
      ⟨"metNe_maxr", "None", 0⟩, ⟨"metMg_maxr", "None", 0⟩, ⟨"metSi_maxr", "None", 0⟩,
      ⟨"metFe_maxr", "None", 0⟩, ⟨"metOther_maxr", "None", 0⟩])]

/-- `basic_fields` of the text catalogues, `universemachine.py:94-106`. -/
def umTextBasic : List (Name × List Sub) :=
  [("x", [⟨"pos_x", "Mpc/h", (-1)⟩]),
   ("y", [⟨"pos_y", "Mpc/h", (-1)⟩]),
   ("z", [⟨"pos_z", "Mpc/h", (-1)⟩]),
   ("vx", [⟨"v_x", "km/s", 0⟩]),
   ("vy", [⟨"v_y", "km/s", 0⟩]),
   ("vz", [⟨"v_z", "km/s", 0⟩]),
   ("m", [⟨"mass", "Msun/h", (-1)⟩])]

/-- `basic_fields` of the binary catalogues, `universemachine.py:109-117`. -/
def umBinBasic : List (Name × List Sub) :=
  [("pos", [⟨"pos_x", "Mpc/h", (-1)⟩, ⟨"pos_y", "Mpc/h", (-1)⟩, ⟨"pos_z", "Mpc/h", (-1)⟩,
      ⟨"v_x", "km/s", 0⟩, ⟨"v_y", "km/s", 0⟩, ⟨"v_z", "km/s", 0⟩]),
   ("m", [⟨"mass", "Msun/h", (-1)⟩])]

/-- `dm_fields`, `universemachine.py:120-144`. -/
def umDm : List (Name × List Sub) :=
  [("id", [⟨"halo_id", "None", 0⟩]),
   ("descid", [⟨"descendent_id", "None", 0⟩]),
   ("upid", [⟨"parent_id", "None", 0⟩]),
   ("v", [⟨"vmax", "km/s", 0⟩]),
   ("mp", [⟨"mass_peak", "Msun/h", (-1)⟩]),
   ("vmp", [⟨"vmax_peak", "km/s", 0⟩]),
   ("r", [⟨"r", "kpc/h", (-1)⟩]),
   ("rank1", [⟨"Rank1", "None", 0⟩])]

/-- `matter_fields`, `universemachine.py:146-164`. -/
def umMatter : List (Name × List Sub) :=
  [("sm", [⟨"m_stars", "Msun/h", (-1)⟩]),
   ("icl", [⟨"icl", "Msun/h", (-1)⟩]),
   ("sfr", [⟨"sfr", "Msun/yr", 0⟩]),
   ("obs_sm", [⟨"m_stars_obs", "Msun/h", (-1)⟩]),
   ("obs_sfr", [⟨"sfr_obs", "Msun/yr", 0⟩]),
   ("obs_uv", [⟨"phot_uv_obs", "mag", 0⟩])]

/-- `basic_fields`, `uchuu.py:76-88`. -/
def uchuuBasic : List (Name × List Sub) :=
  [("x", [⟨"pos_x", "Mpc/h", (-1)⟩]),
   ("y", [⟨"pos_y", "Mpc/h", (-1)⟩]),
   ("z", [⟨"pos_z", "Mpc/h", (-1)⟩]),
   ("vx", [⟨"v_x", "km/s", 0⟩]),
   ("vy", [⟨"v_y", "km/s", 0⟩]),
   ("vz", [⟨"v_z", "km/s", 0⟩]),
   ("Mvir", [⟨"mass", "Msun/h", (-1)⟩])]

/-- `dm_fields`, `uchuu.py:91-121`. -/
def uchuuDm : List (Name × List Sub) :=
  [("id", [⟨"halo_id", "None", 0⟩]),
   ("desc_id", [⟨"descendent_id", "None", 0⟩]),
   ("upid", [⟨"parent_id", "None", 0⟩]),
   ("vmax", [⟨"vmax", "km/s", 0⟩]),
   ("Mpeak", [⟨"mass_peak", "Msun/h", (-1)⟩]),
   ("Vmax_Mpeak", [⟨"vmax_peak", "km/s", 0⟩])]

/-- `matter_fields`, `uchuu.py:123-159`. -/
def uchuuMatter : List (Name × List Sub) :=
  [("sm", [⟨"m_stars", "Msun/h", (-1)⟩]),
   ("icl", [⟨"icl", "Msun/h", (-1)⟩]),
   ("sfr", [⟨"sfr", "Msun/yr", 0⟩]),
   ("obs_sm", [⟨"m_stars_obs", "Msun/h", (-1)⟩]),
   ("obs_sfr", [⟨"sfr_obs", "Msun/yr", 0⟩]),
   ("obs_uv", [⟨"phot_uv_obs", "mag", 0⟩]),
   ("A_UV", [⟨"uv_attenuation", "mag", 0⟩])]

/-- The lines of `basic_fields`. -/
def basicLines : Kind → List (Name × List Sub)
  | .illustris => illBasic
  | .illustrisDark => illBasic
  | .tng => illBasic ++ [("SubhaloFlag", [⟨"flag", "none", 0⟩])]         -- illustris.py:86-87
  | .tngDark => illBasic
  | .umBolshoi => umTextBasic
  | .umTest => umTextBasic
  | .umBinary => umBinBasic
  | .uchuu => uchuuBasic

/-- The lines of `dm_fields`. -/
def dmLines : Kind → List (Name × List Sub)
  | .illustris => illDm
  | .illustrisDark => illDm
  | .tng => illDm
  | .tngDark => illDm
  | .umBolshoi => umDm
  | .umTest => umDm
  | .umBinary => umDm
  | .uchuu => uchuuDm

/-- The lines of `matter_fields`. -/
def matterLines : Kind → List (Name × List Sub)
  | .illustris => illMatter
  | .illustrisDark => []                                                 -- illustris.py:126-127
  | .tng => illMatter ++ tngMatter                                       -- illustris.py:246
  | .tngDark => []
  | .umBolshoi => umMatter ++ [("obs_ssfr", [⟨"ssfr_obs", "?", 0⟩]),     -- universemachine.py:168-172
      ("smhm", [⟨"stellar_to_halo_mass_ratio", "None", 0⟩])]
  | .umTest => umMatter ++ [("obs_ssfr", [⟨"ssfr_obs", "?", 0⟩]),
      ("smhm", [⟨"stellar_to_halo_mass_ratio", "None", 0⟩])]
  | .umBinary => umMatter ++ [("a_uv", [⟨"uv_attenuation", "mag", 0⟩])]  -- universemachine.py:176-177
  | .uchuu => uchuuMatter

/-- The unit conversions, `illustris.py:251-256`, `universemachine.py:182-185`, `uchuu.py:162-165`. -/
inductive Conv where
  | power10 | kpcToMpc | bhMassUnit | applyH
  deriving DecidableEq

/-- A conversion applied to a number. -/
def Conv.on {K : Type} [Field K] (c : Conv) (x h : K) : K :=
  match c with
  | .power10 => x * 10 ^ 10
  | .kpcToMpc => x / 1000
  | .bhMassUnit => x * (978 / 1000)
  | .applyH => x * h

/-- The lines of `transform_keys` of Illustris, `illustris.py:257-277`. -/
def illTransform : List (Name × Conv) :=
  [("SubhaloBHMass", .power10), ("SubhaloBHMdot", .power10), ("SubhaloMass", .power10),
   ("SubhaloMassInHalfRad", .power10), ("SubhaloMassInHalfRadType", .power10),
   ("SubhaloMassInMaxRad", .power10), ("SubhaloMassInMaxRadType", .power10),
   ("SubhaloMassInRad", .power10), ("SubhaloMassInRadType", .power10),
   ("SubhaloMassType", .power10), ("SubhaloStellarPhotometricsMassInRad", .power10),
   ("SubhaloWindMass", .power10), ("SubhaloCM", .kpcToMpc), ("SubhaloHalfmassRad", .kpcToMpc),
   ("SuhbaloHalfmassRadType", .kpcToMpc), ("SubhaloPos", .kpcToMpc), ("SubhaloSpin", .kpcToMpc),
   ("SubhaloStellarPhotometricsRad", .kpcToMpc), ("SubhaloVmaxRad", .kpcToMpc),
   ("SubhaloBHMdot", .bhMassUnit)]

/-- The lines of `transform_keys`, `illustris.py:257-277`, `universemachine.py:186-192`,
`uchuu.py:167-175`. -/
def convLines : Kind → List (Name × Conv)
  | .illustris => illTransform
  | .illustrisDark => illTransform
  | .tng => illTransform
  | .tngDark => illTransform
  | .umBolshoi => [("sm", .applyH), ("icl", .applyH), ("obs_sm", .applyH), ("r", .kpcToMpc),
      ("m", .applyH), ("mp", .applyH)]
  | .umTest => [("sm", .applyH), ("icl", .applyH), ("obs_sm", .applyH), ("r", .kpcToMpc)]
  | .umBinary => [("sm", .applyH), ("icl", .applyH), ("obs_sm", .applyH), ("r", .kpcToMpc)]
  | .uchuu => [("sm", .applyH), ("icl", .applyH), ("obs_sm", .applyH)]

/-- A function applied to every number of an array. -/
def Col.mapNum {K : Type} (f : K → K) : Col K → Col K
  | .one v => .one (v.map f)
  | .many rows => .many (rows.map (fun r => r.map f))

/-- A conversion as it is stored in `transform_keys`. -/
def Conv.fn {K : Type} [Field K] (c : Conv) (x : Col K) (h : K) : Col K :=
  x.mapNum (fun y => c.on y h)

/-- `transform_keys`. -/
def transformOf {K : Type} [Field K] (k : Kind) : PyDict Name (Col K → K → Col K) :=
  (lit (convLines k)).map (fun p => (p.1, p.2.fn))

/-- `datafile_indices`, `uchuu.py:70-74`. -/
def uchuuIndex : PyDict Name ℕ :=
  lit ((["id", "upid", "Mvir", "sm", "icl", "sfr", "obs_sm", "obs_sfr", "obs_uv"].map (·, 1)) ++
    (["x", "y", "z"].map (·, 2)) ++
    (["desc_id", "vx", "vy", "vz", "Mpeak", "Vmax_Mpeak", "vmax", "A_UV"].map (·, 3)) ++
    [("SFH", 4), ("ICHL", 5), ("SM_main_progenitor", 6), ("ICL_main_progenitor", 7),
     ("M_main_progenitor", 8), ("SFR_main_progenitor", 9), ("V@Mpeak", 10), ("A_first_infall", 11),
     ("A_last_infall", 12)])

/-- A catalogue object of one of these simulations. -/
structure Cat.IsA {K : Type} [Field K] (cat : Cat K) (k : Kind) : Prop where
  basic : cat.basic = lit (basicLines k)
  dm : cat.dm = lit (dmLines k)
  matter : cat.matter = lit (matterLines k)
  transform : cat.transform = transformOf k

end Verif.Format
