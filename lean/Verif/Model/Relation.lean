import Verif.Model.Match
import Verif.Model.LumFun

/-!
# Model of the tabulated relations of halos and galaxies

`g13irlf_base` (`simim/galprops/sfr_ir.py`) gives infrared luminosities to halos, `bethermin17_base`
(`simim/galprops/sfr_bethermin17.py:9-241`, `302-307`) gives stellar masses.  Both match the halos of every snapshot to
a luminosity (or mass) function, save the relation as three files and interpolate in it.  The functions
are the same up to the luminosity function used, which is a parameter here (`law`).  The numbers of
snapshots are taken to be different, so that `zgrid[i]` is the redshift of the snapshot.
Property values of snapshots have no factor of `h` (the default of `get_snap`).
-/

namespace Verif.Rel

open Verif.Sim (Err)
open Verif.Gal (Fn)

variable {K : Type}

/-- A snapshot: its number, redshift, `box_edge_no_h` and the values of `mass` and `vmax` (missing if the
catalogue does not have them). -/
structure Snap (K : Type) where
  index : ℕ
  redshift : K
  edge : K
  mass : Option (List K)
  vmax : Option (List K)

/-- A frozen distribution with the number of objects per volume, `lum_function_int` at its minimum. -/
structure Law (K : Type) where
  dist : AM.Dist K
  total : K

/-- The values of `haloprop`. -/
inductive Which where
  | vmax | mass | auto | other
  deriving DecidableEq

section
variable [Field K] [LinearOrder K]

/-- `SimHandler.get_snap`, `simhandler.py:343-347`, `428-449`. -/
def getSnap (sim : List (Snap K)) (i : ℕ) : Except Err (Snap K) :=
  match sim.find? (fun s => s.index == i) with
  | some s => .ok s
  | none => .error .valueError

/-- The property used, `sfr_ir.py:93-102`, `sfr_bethermin17.py:175-184`; `true` for `vmax`. -/
def chooseProp (sim : List (Snap K)) : Which → Except Err Bool
  | .other => .error .valueError
  | .vmax => .ok true
  | .mass => .ok false
  | .auto =>
    match getSnap sim 0 with
    | .error e => .error e
    | .ok s =>
      if s.vmax.isSome then .ok true
      else if s.mass.isSome then .ok false
      else .error .valueError

/-- `halopropgrid`, `sfr_ir.py:104-107`, `sfr_bethermin17.py:186-189`. -/
def gridOf (fn : Fn K) (useVmax : Bool) (massmin : K) : List K :=
  if useVmax then AM.linspace 0 5000 5000
  else (AM.linspace (fn.log10 massmin) (fn.log10 massmin + 10) 5000).map (fn.pow 10)

/-- The values of the halos that are heavy enough, `sfr_ir.py:124-125`, `sfr_bethermin17.py:207-208`:
`set_property_range('mass', halomassmin, np.inf)`, `return_property(haloprop)`. -/
def selected (s : Snap K) (useVmax : Bool) (massmin : K) : Except Err (List K) :=
  match s.mass with
  | none => .error .valueError
  | some ms =>
    match (if useVmax then s.vmax else s.mass) with
    | none => .error .valueError
    | some vs => .ok (((ms.zip vs).filter (fun p => decide (massmin ≤ p.1))).map Prod.snd)

/-- The fractions missing at the low end, `sfr_ir.py:128-133`, `sfr_bethermin17.py:211-216`. -/
def missing (n : ℕ) (total : K) : K × K :=
  if (n : K) > total then (0, 1 - total / (n : K)) else (1 - (n : K) / total, 0)

/-- The call of `am_dfcat`, `sfr_ir.py:136`, `sfr_bethermin17.py:219`, with the default options. -/
def options (lows : K × K) : AM.Params K :=
  { low1 := lows.1, high1 := 0, low2 := lows.2, high2 := 0,
    exLow1 := .value none, exHigh1 := .value none, exLow2 := .value none, exHigh2 := .value none,
    reverse := false }

/-- A value in the table; quantiles inside a distribution are finite, infinite values would be treated as
missing. -/
def finite : AM.V K → Option K
  | some (some x) => some x
  | _ => none

/-- One row of the table, `sfr_ir.py:119-137`, `sfr_bethermin17.py:200-220`: zeros if there are no halos. -/
def row (law : Law K) (s : Snap K) (useVmax : Bool) (massmin : K) (grid : List K) :
    Except Err (List (Option K)) :=
  match selected s useVmax massmin with
  | .error e => .error e
  | .ok [] => .ok (grid.map (fun _ => some 0))
  | .ok (v :: vs) =>
    match AM.amDfcat (v :: vs) law.dist 0 ⊤ (options (missing (v :: vs).length (law.total * s.edge ^ 3))) with
    | .error e => .error e
    | .ok m => .ok ((m.p2s grid).map finite)

/-- The three files. -/
structure Disk (K : Type) where
  axis : Option (List K)                        -- mass_axis.npy
  redshifts : Option (List K)                   -- redshift_axis.npy
  table : Option (List (List (Option K)))       -- lir.npy or stellarmass.npy, one row per redshift

/-- One `np.save`. -/
inductive Write (K : Type) where
  | axis (x : List K)
  | redshifts (z : List K)
  | table (t : List (List (Option K)))

/-- The effect of one `np.save`. -/
def Write.apply (d : Disk K) : Write K → Disk K
  | .axis x => { d with axis := some x }
  | .redshifts z => { d with redshifts := some z }
  | .table t => { d with table := some t }

/-- The arguments of the constructor that decide about the table. -/
structure Request (K : Type) where
  comp : Bool
  remake : Bool
  haloprop : Which
  massmin : K

/-- What `_make_lir_function` (`sfr_ir.py:89-141`) or `_make_stellarmass_function`
(`sfr_bethermin17.py:171-225`) writes, in order; `law z` is the distribution at redshift `z`. -/
def make (fn : Fn K) (sim : List (Snap K)) (law : K → Except Err (Law K)) (r : Request K) : Except Err (List (Write K)) :=
  match chooseProp sim r.haloprop with
  | .error e => .error e
  | .ok useVmax =>
    let grid := gridOf fn useVmax r.massmin
    match mapE (fun (s : Snap K) =>
        match getSnap sim s.index with
        | .error e => .error e
        | .ok s' =>
          match law s'.redshift with
          | .error e => .error e
          | .ok l => row l s' useVmax r.massmin grid) sim with
    | .error e => .error e
    | .ok rows => .ok [.axis grid, .redshifts (sim.map Snap.redshift), .table rows]

/-- The interpolator. -/
structure Interp (K : Type) where
  axis : List K
  redshifts : List K
  table : List (List (Option K))

/-- Strictly ascending. -/
def ascending : List K → Bool
  | a :: b :: rest => decide (a < b) && ascending (b :: rest)
  | _ => true

/-- `RegularGridInterpolator(...)` of scipy: the axes ascend or descend strictly (descending axes are turned
round) and the shape of the table fits. -/
def interpolator (x z : List K) (t : List (List (Option K))) : Except Err (Interp K) :=
  if t.length = z.length ∧ t.all (fun r => decide (r.length = x.length)) then
    if ascending x then
      if ascending z then .ok ⟨x, z, t⟩
      else if ascending z.reverse then .ok ⟨x, z.reverse, t.reverse⟩
      else .error .valueError
    else .error .valueError
  else .error .valueError

/-- The part of `_load_lir_function` that reads the files, `sfr_ir.py:80-87`,
`sfr_bethermin17.py:162-169`. -/
def load (d : Disk K) : Except Err (Option (Interp K)) :=
  match d.table with
  | none => .ok none
  | some t =>
    match d.axis, d.redshifts with
    | some x, some z =>
      match interpolator x z t with
      | .error e => .error e
      | .ok i => .ok (some i)
    | _, _ => .error .fileNotFound

/-- `_load_lir_function` and `_load_stellarmass_function`, `sfr_ir.py:72-87`, `sfr_bethermin17.py:154-169`,
with the state of the disk afterwards. -/
def construct (fn : Fn K) (sim : List (Snap K)) (law : K → Except Err (Law K)) (r : Request K) (d : Disk K) :
    Disk K × Except Err (Option (Interp K)) :=
  if r.remake || (r.comp && d.table.isNone) then
    match make fn sim law r with
    | .error e => (d, .error e)
    | .ok ws => (ws.foldl Write.apply d, load (ws.foldl Write.apply d))
  else (d, load d)

/-- The cell of an axis that contains `x` and the position in it: the last cell that begins at or before
`x`; none outside the axis.  Axes of one value are left out. -/
def cell : List K → K → Option (ℕ × K)
  | a :: b :: rest, x =>
    if x < a then none
    else if rest ≠ [] ∧ b ≤ x then
      match cell (b :: rest) x with
      | none => none
      | some (i, t) => some (i + 1, t)
    else if x ≤ b then some (0, (x - a) / (b - a))
    else none
  | _, _ => none

/-- Weighted sum; NaN times zero is NaN. -/
def mix (t : K) (u v : Option K) : Option K :=
  match u, v with
  | some u, some v => some ((1 - t) * u + t * v)
  | _, _ => none

/-- The value at a position of the table. -/
def Interp.entry (p : Interp K) (i j : ℕ) : Option K :=
  match p.table[i]? with
  | none => none
  | some r => (r[j]?).join

/-- `self.interpolator((haloprop, redshift))` for numbers: linear in both, NaN outside. -/
def Interp.eval (p : Interp K) (x z : K) : Option K :=
  match cell p.axis x, cell p.redshifts z with
  | some (j, s), some (i, t) =>
    mix t (mix s (p.entry i j) (p.entry i (j + 1))) (mix s (p.entry (i + 1) j) (p.entry (i + 1) (j + 1)))
  | _, _ => none

/-- `lir` and `stellarmass`, `sfr_ir.py:171-176`, `sfr_bethermin17.py:302-307`. -/
def value (o : Option (Interp K)) (x z : K) : Except Err (Option K) :=
  match o with
  | none => .error .valueError
  | some p => .ok (p.eval x z)

/-- `sfr`, `sfr_ir.py:178-186`. -/
def sfr (o : Option (Interp K)) (own : K) (lirToSfr : Option K) (x z : K) : Except Err (Option K) :=
  match o with
  | none => .error .valueError
  | some p => .ok ((p.eval x z).map (fun l => l * lirToSfr.getD own))

/-! ## The infrared luminosity function -/

/-- `alpha0`, `sigma0`, `lstar0`, `phistar0`. -/
structure Pars (K : Type) where
  alpha : K
  sigma : K
  lstar : K
  phistar : K

/-- The default values, `sfr_ir.py:19` and `143`. -/
def defaultPars (fn : Fn K) : Pars K :=
  { alpha := 12 / 10, sigma := 5 / 10, lstar := fn.pow 10 (995 / 100), phistar := fn.pow 10 (-(225 / 100)) }

/-- The choice of `get_irlf_pars`, `sfr_ir.py:143-149`: the values of the object are used if `alpha0` is
`None`; they do not exist before line 65. -/
def choosePars (own : Option (Pars K)) (alpha0 : Option K) (args : Pars K) : Except Err (Pars K) :=
  match alpha0 with
  | none =>
    match own with
    | none => .error .attributeError
    | some p => .ok p
  | some a => .ok { args with alpha := a }

/-- `lstar`, `sfr_ir.py:161-163`. -/
def lstarAt (fn : Fn K) (lstar0 z : K) : K :=
  if z < 2 then lstar0 * fn.pow (1 + z) (355 / 100)
  else lstar0 * fn.pow (1 + 2) (355 / 100) * fn.pow ((1 + z) / (1 + 2)) (162 / 100)

/-- `phistar`, `sfr_ir.py:165-167`. -/
def phistarAt (fn : Fn K) (phistar0 z : K) : K :=
  if z < 11 / 10 then phistar0 * fn.pow (1 + z) (-(57 / 100))
  else phistar0 * fn.pow (1 + 11 / 10) (-(57 / 100)) * fn.pow ((1 + z) / (1 + 11 / 10)) (-(392 / 100))

/-- `get_irlf_pars(z)` with given values at redshift zero, `sfr_ir.py:152-169`. -/
def evolve (fn : Fn K) (p : Pars K) (z : K) : Pars K :=
  { p with lstar := lstarAt fn p.lstar z, phistar := phistarAt fn p.phistar z }

/-- `get_irlf_pars(z)` without further arguments, as called in line 119. -/
def irlfPars (fn : Fn K) (own : Option (Pars K)) (z : K) : Except Err (Pars K) :=
  match choosePars own (some (defaultPars fn).alpha) (defaultPars fn) with
  | .error e => .error e
  | .ok p => .ok (evolve fn p z)

/-- A tabulated distribution as a law: scipy gives 0 and 1 outside the support. -/
def ofTab (fn : Fn K) (d : LF.Tab K) : Law K where
  dist :=
    { cdf := fun x => match x with
        | none => 1
        | some x => (d.cdf fn x).getD 0
      ppf := fun q => (d.ppf fn q).map (fun (x : K) => (x : WithTop K)) }
  total := d.count fn d.xmin

/-- The distribution made of parameters, `sfr_ir.py:121-122`. -/
def infrared (fn : Fn K) (p : Pars K) (lirmin : K) : Law K :=
  ofTab fn (LF.modified fn p.phistar p.lstar p.alpha p.sigma lirmin)

/-- `g13irlf_base(sim, comp, remake, haloprop, halomassmin, lirmin, lf_...)`, `sfr_ir.py:17-70`: the table
is made before the parameters `lf_...` are stored. -/
def g13 (fn : Fn K) (sim : List (Snap K)) (r : Request K) (lirmin : K) (lf : Pars K) (d : Disk K) :
    Disk K × Except Err (Option (Interp K) × Pars K) :=
  match construct fn sim
      (fun z => match irlfPars fn none z with
        | .ok p => .ok (infrared fn p lirmin)
        | .error e => .error e) r d with
  | (d', .ok o) => (d', .ok (o, lf))
  | (d', .error e) => (d', .error e)

end

/-! ## The stellar mass function -/

/-- A Schechter function as a law; scipy gives 1 at infinity. -/
noncomputable def ofSchechter (sp : LF.Special) (d : LF.Schechter) : Law ℝ where
  dist :=
    { cdf := fun x => match x with
        | none => 1
        | some x => match d.cdf sp [x] with
          | .ok [some c] => c
          | _ => 0
      ppf := fun q => d.ppf sp q }
  total := d.countNumber sp d.xmin

/-- `bethermin17_base(sim, sm_comp, sm_remake, sm_haloprop, sm_halomassmin, ...)`,
`sfr_bethermin17.py:114-126`; `smfpars z` are `ms, a1, p1, a2, p2` of lines 227-241, an interpolation in
published values. -/
noncomputable def b17 (fn : Fn ℝ) (sp : LF.Special) (smfpars : ℝ → ℝ × ℝ × ℝ × ℝ × ℝ) (sim : List (Snap ℝ))
    (r : Request ℝ) (d : Disk ℝ) : Disk ℝ × Except Err (Option (Interp ℝ)) :=
  construct fn sim (fun z => match smfpars z with
    | (ms, a1, p1, a2, p2) => .ok (ofSchechter sp (LF.double ms a1 p1 a2 p2 (10 ^ 5)))) r d

end Verif.Rel
