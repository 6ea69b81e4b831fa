import Verif.Model.Match

/-!
# Model of the galaxy property functions (`simim/galprops/log10normal.py`, `line_co.py`,
`line_co_dutycycle.py`, `line_densegas.py`, `line_fir.py`, `line_fir_yang.py`, `sfr_behroozi13.py:137-215`,
`sfr_bethermin17.py:243-300`)

Numbers are elements of an ordered field; `log10`, `exp`, `erf` and powers are given functions (their
values where numpy gives infinities or NaN are left open).  Arguments are numbers or one-dimensional
arrays.  Random numbers come from generators: the one passed by the caller, the default generator of
`log10normal`, and the global state of `np.random`.
-/

namespace Verif.Gal

variable {K G : Type}

/-- The functions of numpy and scipy that are used. -/
structure Fn (K : Type) where
  log10 : K → K
  exp : K → K
  erf : K → K
  pow : K → K → K
  ln10 : K

/-- The methods `normal` and `random` (`uniform(0,1,n)`, `np.random.rand`) of a generator in state `G`:
that many numbers and the next state. -/
structure Rng (K G : Type) where
  normal : ℕ → G → List K × G
  uniform : ℕ → G → List K × G

/-- The states of the generator passed to a function, of the default generator of `log10normal`
(`log10normal.py:3`) and of the global generator. -/
structure World (G : Type) where
  own : G
  deflt : G
  glob : G

/-- Exceptions. -/
inductive Err where
  | valueError | typeError | indexError | unboundLocal
  deriving DecidableEq

/-- An argument or result: a number or an array. -/
inductive Arg (K : Type) where
  | one (x : K)
  | many (xs : List K)
  deriving DecidableEq

/-- `np.array(x, ndmin=1)`. -/
def Arg.list : Arg K → List K
  | .one x => [x]
  | .many xs => xs

/-- A function applied elementwise. -/
def Arg.map (f : K → K) : Arg K → Arg K
  | .one x => .one (f x)
  | .many xs => .many (xs.map f)

/-- The number of elements. -/
def Arg.size : Arg K → ℕ
  | .one _ => 1
  | .many xs => xs.length

/-- A binary operation on arrays of different length: an array of length one is stretched. -/
def zipL {α β γ : Type} (f : α → β → γ) (xs : List α) (ys : List β) : Except Err (List γ) :=
  if xs.length = ys.length then .ok (List.zipWith f xs ys)
  else
    match xs, ys with
    | [x], ys => .ok (ys.map (f x))
    | xs, [y] => .ok (xs.map (fun x => f x y))
    | _, _ => .error .valueError

/-- A binary operation with broadcasting. -/
def zipA (f : K → K → K) : Arg K → Arg K → Except Err (Arg K)
  | .one x, .one y => .ok (.one (f x y))
  | .one x, .many ys => .ok (.many (ys.map (f x)))
  | .many xs, .one y => .ok (.many (xs.map (fun x => f x y)))
  | .many xs, .many ys => (zipL f xs ys).map .many

/-- What a function gives: a value, or an exception object that is returned, not raised. -/
inductive Out (K : Type) where
  | val (a : Arg K)
  | excObject (e : Err)
  deriving DecidableEq

section
variable [Field K] [LinearOrder K]

/-! ## Scatter -/

/-- Random numbers in the shape of an array, `log10normal.py:31`. -/
def shaped : Arg K → List K → Arg K
  | .one _, z :: _ => .one z
  | .one x, [] => .one x
  | .many _, zs => .many zs

/-- The centre of the distribution, `log10normal.py:25-29`. -/
def centre (fn : Fn K) (x dex : Arg K) (preserve : Bool) : Except Err (Arg K) :=
  if preserve then zipA (fun m d => m / fn.pow 10 (d ^ 2 * fn.ln10 / 2)) x dex else .ok x

/-- `mu * np.power(10, dex*normals)`, `log10normal.py:31`. -/
def spread (fn : Fn K) (mu dex zs : Arg K) : Except Err (Arg K) :=
  match zipA (fun d z => d * z) dex zs with
  | .error e => .error e
  | .ok t => zipA (fun m u => m * fn.pow 10 u) mu t

/-- `log10normal`, `log10normal.py:3-33`, with the generator whose state is `g`. -/
def log10normal (fn : Fn K) (R : Rng K G) (x dex : Arg K) (preserve : Bool) (g : G) :
    Except Err (Arg K) × G :=
  match centre fn x dex preserve with
  | .error e => (.error e, g)
  | .ok mu => (spread fn mu dex (shaped mu (R.normal mu.size g).1), (R.normal mu.size g).2)

/-- Scatter with the generator passed by the caller, if it is switched on. -/
def scatterOwn (fn : Fn K) (R : Rng K G) (on : Bool) (x dex : Arg K) (preserve : Bool)
    (w : World G) : Except Err (Arg K) × World G :=
  if on then
    ((log10normal fn R x dex preserve w.own).1,
     { w with own := (log10normal fn R x dex preserve w.own).2 })
  else (.ok x, w)

/-- A result without exception object. -/
def given (r : Except Err (Arg K) × World G) : Except Err (Out K) × World G := (r.1.map .val, r.2)

/-- `np.array(x, ndmin=1)` of a result. -/
def ndmin1 (r : Except Err (Arg K) × World G) : Except Err (Arg K) × World G :=
  (r.1.map (fun a => .many a.list), r.2)

/-! ## CO lines -/

/-- `L_co[mass < m_min] = 0`, `line_co.py:41`. -/
def cutBelow (mMin : K) (masses ls : List K) : List K :=
  List.zipWith (fun m l => if m < mMin then 0 else l) masses ls

/-- `keating16`, `line_co.py:7-43`. -/
def keating16 (fn : Fn K) (R : Rng K G) (mass : Arg K) (mMin a : K) (scatter : Bool) (sig : K)
    (w : World G) : Except Err (Arg K) × World G :=
  let r := scatterOwn fn R scatter (.many (mass.list.map (fun m => a * m))) (.one sig) false w
  (r.1.map (fun l => .many (cutBelow mMin mass.list l.list)), r.2)

/-- The luminosity of `li16`, `line_co.py:82-84`; `ratio` is `nu_rest/constants.nu_co10`. -/
def liMean (fn : Fn K) (dMf a b ratio sfr : K) : K :=
  fn.pow 10 ((fn.log10 (sfr / dMf * 10 ^ 10) - b) / a) * (49 / 10 ^ 6) * ratio ^ 3

/-- `li16`, `line_co.py:46-89`. -/
def li16 (fn : Fn K) (R : Rng K G) (sfr : Arg K) (dMf a b ratio : K) (scatter : Bool) (sig : K)
    (w : World G) : Except Err (Arg K) × World G :=
  ndmin1 (scatterOwn fn R scatter (sfr.map (liMean fn dMf a b ratio)) (.one sig) true w)

/-- `fraction[fraction>1] = 1`, `line_co_dutycycle.py:35`. -/
def atMostOne (f : K) : K := if f > 1 then 1 else f

/-- `np.amin`. -/
def amin (x : K) (xs : List K) : K := xs.foldl min x

/-- `np.amax`. -/
def amax (x : K) (xs : List K) : K := xs.foldl max x

/-- The nodes and their ages, `line_co_dutycycle.py:27-28`. -/
def ageNodes (age : K → K) (z : K) (zs : List K) : List (K × K) :=
  (AM.linspace (amin z zs) (amax z zs) 50).map (fun (x : K) => (x, age x))

/-- The ages, `line_co_dutycycle.py:25-32`.  `interp1d` is `np.interp` here; all redshifts are between
the first and the last node. -/
def ages (age : K → K) (zs : List K) : List K :=
  if zs.length > 100 then
    match zs with
    | [] => []
    | z :: rest =>
      match ageNodes age z rest with
      | [] => []
      | p :: ps => zs.map (AM.interp id p.2 p.2 p ps)
  else zs.map age

/-- `f_duty`, `line_co_dutycycle.py:4-37`. -/
def fDuty (age : K → K) (sfLength : K) (z : Arg K) : List K :=
  (ages age z.list).map (fun a => atMostOne (sfLength / a))

/-- `L[f>fraction] = 0`, `line_co.py:132-133`: the comparison stretches arrays of length one, the mask
must be as long as the luminosities. -/
def switchOff (ls fs fractions : List K) : Except Err (List K) :=
  match zipL (fun f q => decide (f > q)) fs fractions with
  | .error e => .error e
  | .ok mask =>
    if mask.length = ls.length then .ok (List.zipWith (fun off l => if off then 0 else l) mask ls)
    else .error .indexError

/-- `L *= fraction`, `line_co.py:135`, in place: the luminosities are not stretched. -/
def scaleBy (ls fractions : List K) : Except Err (List K) :=
  if ls.length = fractions.length then .ok (List.zipWith (fun l q => l * q) ls fractions)
  else
    match fractions with
    | [q] => .ok (ls.map (fun l => l * q))
    | _ => .error .valueError

/-- The luminosity of `pullen13`, `line_co.py:129`. -/
def pullenMean (m : K) : K := 10 ^ 6 * m / (5 * 10 ^ 11)

/-- `pullen13`, `line_co.py:92-137`. -/
def pullen13 (R : Rng K G) (age : K → K) (mass z : Arg K) (rand : Bool) (sfLength : K)
    (w : World G) : Except Err (Arg K) × World G :=
  if rand then
    ((switchOff (mass.list.map pullenMean) (R.uniform mass.list.length w.own).1
        (fDuty age sfLength z)).map .many,
     { w with own := (R.uniform mass.list.length w.own).2 })
  else ((scaleBy (mass.list.map pullenMean) (fDuty age sfLength z)).map .many, w)

/-- `L[f<f_duty] = mean(mass[f<f_duty])` for zeros `L`, `line_co.py:178-180`, `line_densegas.py:76-78`. -/
def switchOn (mean : K → K) (duty : K) (fs masses : List K) : List K :=
  List.zipWith (fun f m => if f < duty then mean m else 0) fs masses

/-- `lidz11`, `line_co.py:140-184`, and `hcn_breysse`, `line_densegas.py:48-82`, which differ in the
relation `mean`. -/
def dutyModel (R : Rng K G) (mean : K → K) (mass : Arg K) (duty : K) (rand : Bool) (w : World G) :
    Except Err (Arg K) × World G :=
  if rand then
    (.ok (.many (switchOn mean duty (R.uniform mass.list.length w.own).1 mass.list)),
     { w with own := (R.uniform mass.list.length w.own).2 })
  else (.ok (.many (mass.list.map (fun m => mean m * duty))), w)

/-- The luminosity of `lidz11`, `line_co.py:180`. -/
def lidzMean (m : K) : K := 2800 * (m / 10 ^ 8)

/-- `lidz11`, `line_co.py:140-184`. -/
def lidz11 (R : Rng K G) (mass : Arg K) (duty : K) (rand : Bool) (w : World G) :
    Except Err (Arg K) × World G :=
  dutyModel R lidzMean mass duty rand w

/-- The luminosity of `hcn_breysse`, `line_densegas.py:78`. -/
def breysseMean (fn : Fn K) (m : K) : K := 17 / 10 ^ 16 * fn.pow m (167 / 100)

/-- `hcn_breysse`, `line_densegas.py:48-82`. -/
def hcnBreysse (fn : Fn K) (R : Rng K G) (mass : Arg K) (duty : K) (rand : Bool) (w : World G) :
    Except Err (Arg K) × World G :=
  dutyModel R (breysseMean fn) mass duty rand w

/-- The luminosity of `hcn_gao`, `line_densegas.py:39-41`; `ratio` is `nu_rest/constants.nu_hcn10`. -/
def gaoMean (fn : Fn K) (dMf a b ratio sfr : K) : K :=
  fn.pow 10 ((fn.log10 (sfr / dMf * 10 ^ 10) - b) / a) * (22 / 10 ^ 6) * ratio ^ 3

/-- `hcn_gao`, `line_densegas.py:6-46`. -/
def hcnGao (fn : Fn K) (R : Rng K G) (sfr : Arg K) (dMf a b ratio : K) (scatter : Bool) (sig : K)
    (w : World G) : Except Err (Arg K) × World G :=
  ndmin1 (scatterOwn fn R scatter (sfr.map (gaoMean fn dMf a b ratio)) (.one sig) true w)

/-- `kamenetzky16`, `line_co.py:187-290`: after the check of the lines, `len(sfr)` (line 261) fails for
numbers, and `L_ir` is used before it is assigned (line 265 or 277). -/
def kamenetzky16 (sfr : Arg K) (lines : List ℤ) (w : World G) : Except Err (Arg K) × World G :=
  if lines.any (fun l => decide (l < 1 ∨ 13 < l)) then (.error .valueError, w)
  else
    match sfr with
    | .one _ => (.error .typeError, w)
    | .many _ => (.error .unboundLocal, w)

/-! ## Far infrared lines -/

/-- A slope, an intercept and a scatter. -/
structure Fit (K : Type) where
  m : K
  b : K
  sigma : K

/-- The fits of `delooze14`, `line_fir.py:52-131`; `none` if nothing is assigned. -/
def deloozeFit : String → Option String → Option (Fit K)
  | "[CII]", none => some ⟨101 / 100, -699 / 100, 42 / 100⟩
  | "[CII]", some "DGS" => some ⟨84 / 100, -529 / 100, 40 / 100⟩
  | "[CII]", some "dwarfs" => some ⟨80 / 100, -573 / 100, 37 / 100⟩
  | "[CII]", some "starbursts" => some ⟨1, -706 / 100, 27 / 100⟩
  | "[CII]", some "comp/AGN" => some ⟨90 / 100, -609 / 100, 37 / 100⟩
  | "[CII]", some "high z" => some ⟨118 / 100, -852 / 100, 40 / 100⟩
  | "[OI]", none => some ⟨1, -679 / 100, 42 / 100⟩
  | "[OI]", some "DGS" => some ⟨94 / 100, -637 / 100, 25 / 100⟩
  | "[OI]", some "dwarfs" => some ⟨91 / 100, -623 / 100, 27 / 100⟩
  | "[OI]", some "starbursts" => some ⟨89 / 100, -605 / 100, 20 / 100⟩
  | "[OI]", some "comp/AGN" => some ⟨76 / 100, -508 / 100, 35 / 100⟩
  | "[OIII]", none => some ⟨112 / 100, -748 / 100, 66 / 100⟩
  | "[OIII]", some "DGS" => some ⟨92 / 100, -671 / 100, 30 / 100⟩
  | "[OIII]", some "dwarfs" => some ⟨92 / 100, -671 / 100, 30 / 100⟩
  | "[OIII]", some "starbursts" => some ⟨69 / 100, -389 / 100, 23 / 100⟩
  | "[OIII]", some "comp/AGN" => some ⟨87 / 100, -546 / 100, 35 / 100⟩
  | _, _ => none

/-- The checks of `delooze14`, `line_fir.py:44-51`. -/
def deloozeCheck (line : String) (set : Option String) : Except Err Unit :=
  if line ∉ ["[CII]", "[OI]", "[OIII]"] then .error .valueError
  else
    match set with
    | none => .ok ()
    | some s =>
      if s ∉ ["DGS", "dwarfs", "starbursts", "comp/AGN"] then
        if line = "[CII]" ∧ s = "high z" then .ok () else .error .valueError
      else .ok ()

/-- `delooze14`, `line_fir.py:6-142`. -/
def delooze14 (fn : Fn K) (R : Rng K G) (sfr : Arg K) (line : String) (set : Option String)
    (scatter : Bool) (fix : Option K) (w : World G) : Except Err (Arg K) × World G :=
  match deloozeCheck line set with
  | .error e => (.error e, w)
  | .ok () =>
    match deloozeFit (K := K) line set with
    | none => (.error .unboundLocal, w)
    | some f =>
      scatterOwn fn R scatter
        (.many (sfr.list.map (fun s => fn.pow 10 ((fn.log10 s - f.b) / f.m))))
        (.one (fix.getD f.sigma)) false w

/-- `A` and `B` of `uzgil14`, `line_fir.py:182-231`. -/
def uzgilFit : String → Option (K × K)
  | "[CII]" => some (89 / 100, 244 / 100)
  | "[NII]" => some (101 / 100, 354 / 100)
  | "[OI]" => some (98 / 100, 270 / 100)
  | "[OIII]88um" => some (98 / 100, 286 / 100)
  | "[OIII]52um" => some (88 / 100, 254 / 100)
  | "[SiII]" => some (104 / 100, 315 / 100)
  | "[SIII]33um" => some (99 / 100, 321 / 100)
  | "[SIII]19um" => some (97 / 100, 347 / 100)
  | "[NeII]" => some (99 / 100, 326 / 100)
  | "[NeIII]" => some (110 / 100, 372 / 100)
  | _ => none

/-- `A` and `B` of `spinoglio12`, `line_fir.py:286-335`. -/
def spinoglioFit : String → Option (K × K)
  | "[CII]" => some (89 / 100, 267 / 100)
  | "[NII]" => some (101 / 100, 380 / 100)
  | "[OI]" => some (98 / 100, 295 / 100)
  | "[OIII]88um" => some (98 / 100, 311 / 100)
  | "[OIII]52um" => some (88 / 100, 276 / 100)
  | "[SiII]" => some (104 / 100, 342 / 100)
  | "[SIII]33um" => some (99 / 100, 346 / 100)
  | "[SIII]19um" => some (97 / 100, 372 / 100)
  | "[NeII]" => some (99 / 100, 294 / 100)
  | "[NeIII]" => some (110 / 100, 400 / 100)
  | _ => none

/-- The luminosity, `line_fir.py:233-244` and `337-347`; `unit` is `const.Lsun_to_W * 1e-34`. -/
def firMean (fn : Fn K) (unit dMf a b sfr : K) : K :=
  fn.pow 10 (a * fn.log10 (sfr / dMf * 10 ^ 10 * unit) - b) / unit

/-- `uzgil14`, `line_fir.py:144-249`, and `spinoglio12`, `line_fir.py:251-352`, which differ in the fits.
`A` is not assigned for other lines. -/
def firModel (fn : Fn K) (R : Rng K G) (fits : String → Option (K × K)) (unit : K) (sfr : Arg K)
    (dMf : K) (line : String) (scatter : Bool) (sig : K) (w : World G) :
    Except Err (Arg K) × World G :=
  match fits line with
  | none => (.error .unboundLocal, w)
  | some (a, b) =>
    scatterOwn fn R scatter (.many (sfr.list.map (firMean fn unit dMf a b))) (.one sig) false w

/-- The fits of `schaerer20`, `line_fir.py:389-400`. -/
def schaererFit : String → Option (K × K)
  | "ALPINE-uvir" => some (1, 7)
  | "ALPINE-sed" => some (84 / 100, 709 / 100)
  | "ALPINE-uvirx" => some (117 / 100, 661 / 100)
  | "high z-uvirx" => some (128 / 100, 643 / 100)
  | _ => none

/-- `schaerer20`, `line_fir.py:354-406`. -/
def schaerer20 (fn : Fn K) (R : Rng K G) (sfr : Arg K) (set : Option String) (scatter : Bool)
    (sig : K) (w : World G) : Except Err (Arg K) × World G :=
  let s := set.getD "ALPINE-uvirx"
  if s ∉ ["ALPINE-uvir", "ALPINE-sed", "ALPINE-uvirx", "high z-uvirx"] then (.error .valueError, w)
  else
    match schaererFit (K := K) s with
    | none => (.error .unboundLocal, w)
    | some (m, b) =>
      scatterOwn fn R scatter (sfr.map (fun x => fn.pow 10 (m * fn.log10 x + b))) (.one sig) false w

/-- `zhao13`, `line_fir.py:408-445`. -/
def zhao13 (fn : Fn K) (R : Rng K G) (sfr : Arg K) (dMf : K) (scatter : Bool) (sig : K)
    (w : World G) : Except Err (Arg K) × World G :=
  scatterOwn fn R scatter
    (sfr.map (fun x => fn.pow 10 ((fn.log10 (x * 10 ^ 10 / dMf) - 451 / 100) / (95 / 100))))
    (.one sig) false w

/-- The luminosity of `padmanabhan19`, `line_fir.py:481`. -/
def padMean (fn : Fn K) (m1 b n1 a m z : K) : K :=
  fn.pow (m / m1) b * fn.exp (-n1 / m) *
    fn.pow (fn.pow (1 + z) (27 / 10) / (1 + fn.pow ((1 + z) / (29 / 10)) (56 / 10))) a

/-- `padmanabhan19`, `line_fir.py:447-490`. -/
def padmanabhan19 (fn : Fn K) (R : Rng K G) (mass z : Arg K) (m1 b n1 a : K) (scatter : Bool)
    (sig : Option K) (w : World G) : Except Err (Arg K) × World G :=
  match zipA (padMean fn m1 b n1 a) mass z with
  | .error e => (.error e, w)
  | .ok l =>
    if scatter then
      match sig with
      | none => (.error .valueError, w)
      | some s => scatterOwn fn R true l (.one s) true w
    else (.ok l, w)

/-! ## The model of Yang et al. -/

/-- The parameters of a fit at one redshift. -/
structure YFit (K : Type) where
  m1 : K
  n : K
  a : K
  b : K
  sig : K

/-- The kinds of line of `yang22`. -/
inductive YLine where
  | cii | ci | co
  deriving DecidableEq

/-- The lines of `yang22`, `line_fir_yang.py:38-45`. -/
def yangLine (line : String) : Except Err YLine :=
  if line = "CII" then .ok .cii
  else if line ∈ ["CI1-0", "CI2-1"] then .ok .ci
  else if line ∈ ["CO1-0", "CO2-1", "CO3-2", "CO4-3", "CO5-4"] then .ok .co
  else .error .valueError

/-- `_yang22_cii_fit`, `_yang22_ci_fit`, `_yang22_co_fit`, `line_fir_yang.py:65-97`, `143-177`, `229-263`:
the parameters as functions of redshift are given (`fit`).  The first array is for all but the scatter,
the second for the scatter.  For CII a number is first made an array, and the scatter stays one; for CO
`len` of a number fails (line 152); for CI an array of length two is indexed with a mask of length five
(line 235). -/
def yangFit (fit : String → K → YFit K) (line : String) (kind : YLine) (z : Arg K) :
    Except Err (Arg K × Arg K) :=
  match kind, z with
  | .cii, .one x => .ok (.one x, .many [(fit line x).sig])
  | .cii, .many xs => .ok (.many xs, .many (xs.map (fun x => (fit line x).sig)))
  | .ci, _ => .error .indexError
  | .co, .one _ => .error .typeError
  | .co, .many xs => .ok (.many xs, .many (xs.map (fun x => (fit line x).sig)))

/-- The luminosity, `line_fir_yang.py:50-52`. -/
def yangMean (fn : Fn K) (f : YFit K) (m : K) : K :=
  2 * fn.pow 10 f.n * m *
    (fn.pow (m / fn.pow 10 f.m1) (-f.a) + fn.pow (m / fn.pow 10 f.m1) f.b)⁻¹

/-- `_yang22_fduty` for one halo, `line_fir_yang.py:269-273`. -/
def yangDuty (fn : Fn K) (m z : K) : K :=
  if z < 4 then
    (1 + fn.pow (m / fn.pow 10 (1173 / 100 + 6634 / 10000 * z))
      (137 / 100 - 190 / 1000 * z + 215 / 10000 * z ^ 2))⁻¹
  else 1

/-- `_yang22_fduty`, `line_fir_yang.py:266-277`: the mask made from the redshifts must be as long as the
masses, unless the redshift is a number. -/
def yangFduty (fn : Fn K) (mass z : Arg K) : Except Err (List K) :=
  match z with
  | .one x => .ok (mass.list.map (fun m => yangDuty fn m x))
  | .many xs =>
    if xs.length = mass.list.length then .ok (List.zipWith (yangDuty fn) mass.list xs)
    else .error .indexError

/-- The duty cycle, `line_fir_yang.py:58-60`, with the global generator; `len` of a number fails. -/
def yangSwitch (fn : Fn K) (R : Rng K G) (mass z l : Arg K) (w : World G) :
    Except Err (Arg K) × World G :=
  match yangFduty fn mass z with
  | .error e => (.error e, w)
  | .ok f =>
    match l with
    | .one _ => (.error .typeError, w)
    | .many ls =>
      ((switchOff ls (R.uniform ls.length w.glob).1 f).map .many,
       { w with glob := (R.uniform ls.length w.glob).2 })

/-- `yang22`, `line_fir_yang.py:6-62`. -/
def yang22 (fn : Fn K) (R : Rng K G) (fit : String → K → YFit K) (mass z : Arg K) (line : String)
    (fduty scatter : Bool) (fix : Option K) (w : World G) : Except Err (Arg K) × World G :=
  match yangLine line with
  | .error e => (.error e, w)
  | .ok kind =>
    match yangFit fit line kind z with
    | .error e => (.error e, w)
    | .ok (zs, sig) =>
      match zipA (fun m x => yangMean fn (fit line x) m) mass zs with
      | .error e => (.error e, w)
      | .ok l =>
        match scatterOwn fn R scatter l (fix.elim sig .one) false w with
        | (.error e, w') => (.error e, w')
        | (.ok l', w') => if fduty then yangSwitch fn R mass z l' w' else (.ok l', w')

/-! ## Star formation rates -/

/-- `behroozi13_base.sfr` and `.stellarmass`, `sfr_behroozi13.py:137-175` and `177-215`, which differ in
the table `ev`.  The exception is returned, not raised (lines 159, 199); the scatter is added by
`log10normal` with its default generator (lines 173, 213). -/
def behroozi (fn : Fn K) (R : Rng K G) (pathSet : Bool) (ev : K → K → K) (z mass : Arg K)
    (scatter : Bool) (sig : K) (w : World G) : Except Err (Out K) × World G :=
  if !pathSet then (.ok (.excObject .valueError), w)
  else
    match zipA ev z mass with
    | .error e => (.error e, w)
    | .ok v =>
      if scatter then
        ((log10normal fn R v (.one sig) true w.deflt).1.map .val,
         { w with deflt := (log10normal fn R v (.one sig) true w.deflt).2 })
      else (.ok (.val v), w)

/-- The parameters of `bethermin17_base`, `sfr_bethermin17.py:68-100`. -/
structure B17 (K : Type) where
  fq00 : K
  gamma : K
  logmt0 : K
  alpha1 : K
  alpha2 : K
  sigsf0 : K
  beta1 : K
  beta2 : K
  m0 : K
  m1 : K
  a0 : K
  a1 : K
  a2 : K
  lowz : Bool
  sigma : K
  msoffset : K
  sboffset : K
  limit : K

/-- `b17_sffrac`, `sfr_bethermin17.py:243-250`, for one galaxy. -/
def sffrac (fn : Fn K) (p : B17 K) (m z : K) : K :=
  (1 - p.fq00 * fn.pow (1 + z) p.gamma) * (1 / 2) *
    (1 - fn.erf ((fn.log10 m - (p.logmt0 + p.alpha1 * z + p.alpha2 * z ^ 2)) /
      (p.sigsf0 + p.beta1 * z + p.beta2 * z ^ 2)))

/-- `term2` of `b17_sfms`, `sfr_bethermin17.py:255-256`. -/
def term2 (fn : Fn K) (p : B17 K) (m z : K) : K :=
  let t := fn.log10 (m / 10 ^ 9) - p.m1 - p.a2 * fn.log10 (1 + z)
  if t < 0 then 0 else t

/-- The correction at low redshift, `sfr_bethermin17.py:259-263`. -/
def lowzTerm (p : B17 K) (z : K) : K :=
  if p.lowz ∧ z < 1 / 2 then 1 / 10 * (1 / 2 - z) / (1 / 2 - 22 / 100) else 0

/-- `b17_sfms`, `sfr_bethermin17.py:252-265`, for one galaxy. -/
def sfms (fn : Fn K) (p : B17 K) (m z : K) : K :=
  fn.pow 10 (fn.log10 (m / 10 ^ 9) - p.m0 + p.a0 * fn.log10 (1 + z) - p.a1 * term2 fn p m z ^ 2
    - lowzTerm p z)

/-- `b17_sbfrac`, `sfr_bethermin17.py:267-275`, for one galaxy. -/
def sbfrac (z : K) : K := if z > 1 then 3 / 100 else 15 / 1000 + 15 / 1000 * z

/-- The rate before starbursts and quenching, `sfr_bethermin17.py:280-281`; NaN for NaN. -/
def rate0 (fn : Fn K) (p : B17 K) (m : Option K) (z n : K) : Option K :=
  m.map (fun m => p.msoffset * sfms fn p m z * fn.pow 10 (p.sigma * n))

/-- A galaxy of the result: its rate and the flags. -/
structure Galaxy (K : Type) where
  sfr : Option K
  starburst : Bool
  quenched : Bool
  deriving DecidableEq

/-- What happens to one galaxy, `sfr_bethermin17.py:280-295`: `n`, `u`, `v` are its random numbers.
Comparisons with NaN are false. -/
def b17One (fn : Fn K) (p : B17 K) (m : Option K) (z n u v : K) : Galaxy K :=
  let r := rate0 fn p m z n
  let issb := decide (u < sbfrac z)
  let r := if issb then r.map (fun x => x * (p.sboffset / p.msoffset)) else r
  let isq := match m with
    | some m => decide (v > sffrac fn p m z)
    | none => false
  let r := if isq then some 0 else r
  let issb := if isq then false else issb
  ⟨r.map (fun x => if x > p.limit then p.limit else x), issb, isq⟩

/-- The galaxies one after the other. -/
def b17All (fn : Fn K) (p : B17 K) : List (Option K) → List K → List K → List K → List K →
    List (Galaxy K)
  | m :: ms, z :: zs, n :: ns, u :: us, v :: vs => b17One fn p m z n u v :: b17All fn p ms zs ns us vs
  | _, _, _, _, _ => []

/-- The masses and redshifts of all galaxies, `sfr_bethermin17.py:255-263`: arrays of length one are
stretched (line 255), but with the correction at low redshift the mask made from one redshift does not fit
several masses (line 261). -/
def matched (p : B17 K) (ms : List (Option K)) : Arg K → Except Err (List (Option K) × List K)
  | .one z => .ok (ms, List.replicate ms.length z)
  | .many zs =>
    if zs.length = ms.length then .ok (ms, zs)
    else
      match ms, zs with
      | [m], zs => .ok (List.replicate zs.length m, zs)
      | ms, [z] => if p.lowz then .error .indexError else .ok (ms, List.replicate ms.length z)
      | _, _ => .error .valueError

/-- `b17_sfr`, `sfr_bethermin17.py:277-300`, for arrays of stellar masses (for a number line 256 fails). -/
def b17Sfr (fn : Fn K) (R : Rng K G) (p : B17 K) (ms : List (Option K)) (z : Arg K) (w : World G) :
    Except Err (List (Galaxy K)) × World G :=
  match matched p ms z with
  | .error e => (.error e, w)
  | .ok (ms, zs) =>
    let n := R.normal ms.length w.own
    let u := R.uniform ms.length n.2
    let v := R.uniform ms.length u.2
    (.ok (b17All fn p ms zs n.1 u.1 v.1), { w with own := v.2 })

/-! ## All functions -/

/-- A call of one of the functions that take a generator, with all its arguments. -/
inductive Call (K : Type) where
  | keating16 (mass : Arg K) (mMin a : K) (scatter : Bool) (sig : K)
  | li16 (sfr : Arg K) (dMf a b ratio : K) (scatter : Bool) (sig : K)
  | pullen13 (age : K → K) (mass z : Arg K) (rand : Bool) (sfLength : K)
  | lidz11 (mass : Arg K) (duty : K) (rand : Bool)
  | kamenetzky16 (sfr : Arg K) (lines : List ℤ)
  | hcnGao (sfr : Arg K) (dMf a b ratio : K) (scatter : Bool) (sig : K)
  | hcnBreysse (mass : Arg K) (duty : K) (rand : Bool)
  | delooze14 (sfr : Arg K) (line : String) (set : Option String) (scatter : Bool) (fix : Option K)
  | uzgil14 (unit : K) (sfr : Arg K) (dMf : K) (line : String) (scatter : Bool) (sig : K)
  | spinoglio12 (unit : K) (sfr : Arg K) (dMf : K) (line : String) (scatter : Bool) (sig : K)
  | schaerer20 (sfr : Arg K) (set : Option String) (scatter : Bool) (sig : K)
  | zhao13 (sfr : Arg K) (dMf : K) (scatter : Bool) (sig : K)
  | padmanabhan19 (mass z : Arg K) (m1 b n1 a : K) (scatter : Bool) (sig : Option K)
  | yang22 (fit : String → K → YFit K) (mass z : Arg K) (line : String) (fduty scatter : Bool)
      (fix : Option K)
  | behroozi (pathSet : Bool) (ev : K → K → K) (z mass : Arg K) (scatter : Bool) (sig : K)

/-- The call is carried out. -/
def Call.run (fn : Fn K) (R : Rng K G) : Call K → World G → Except Err (Out K) × World G
  | .keating16 mass mMin a s sig, w => given (Gal.keating16 fn R mass mMin a s sig w)
  | .li16 sfr d a b r s sig, w => given (Gal.li16 fn R sfr d a b r s sig w)
  | .pullen13 age mass z r l, w => given (Gal.pullen13 R age mass z r l w)
  | .lidz11 mass d r, w => given (Gal.lidz11 R mass d r w)
  | .kamenetzky16 sfr lines, w => given (Gal.kamenetzky16 sfr lines w)
  | .hcnGao sfr d a b r s sig, w => given (Gal.hcnGao fn R sfr d a b r s sig w)
  | .hcnBreysse mass d r, w => given (Gal.hcnBreysse fn R mass d r w)
  | .delooze14 sfr line set s fix, w => given (Gal.delooze14 fn R sfr line set s fix w)
  | .uzgil14 unit sfr d line s sig, w => given (firModel fn R uzgilFit unit sfr d line s sig w)
  | .spinoglio12 unit sfr d line s sig, w =>
    given (firModel fn R spinoglioFit unit sfr d line s sig w)
  | .schaerer20 sfr set s sig, w => given (Gal.schaerer20 fn R sfr set s sig w)
  | .zhao13 sfr d s sig, w => given (Gal.zhao13 fn R sfr d s sig w)
  | .padmanabhan19 mass z m1 b n1 a s sig, w =>
    given (Gal.padmanabhan19 fn R mass z m1 b n1 a s sig w)
  | .yang22 fit mass z line f s fix, w => given (Gal.yang22 fn R fit mass z line f s fix w)
  | .behroozi p ev z mass s sig, w => Gal.behroozi fn R p ev z mass s sig w

end

end Verif.Gal
