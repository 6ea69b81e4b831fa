import Verif.Model.Galprops
import Mathlib.Analysis.SpecialFunctions.Log.Base
import Mathlib.Analysis.SpecialFunctions.Pow.Real
import Mathlib.Algebra.Order.Floor.Ring

/-!
# Model of the distributions of `simim/galprops/galprops_am.py:317-757`

The classes derive from `scipy.stats.rv_continuous`.  Its methods `cdf`, `pdf` and `ppf` check the
parameters (`_argcheck`), treat values outside the support themselves and pass the rest to `_cdf`, `_pdf`
and `_ppf` as one-dimensional arrays.  If all values are inside the support, the parameters are passed as
arrays of the same length; otherwise as arrays of length one (`argsreduce` of scipy 1.6 and later).
Numbers are exact.  The parameters of a distribution are numbers; infinite and NaN arguments are left out.
-/

namespace Verif.LF

open Verif.Gal (Fn)

/-- Exceptions. -/
inductive Err where
  | valueError
  | typeError
  deriving DecidableEq

/-! ## Tabulated distributions -/

section
variable {K : Type} [Field K] [LinearOrder K]

/-- `np.logspace(np.log10(xmin), np.log10(xmin)+20, 10001)`, `galprops_am.py:616`, `660`, `694`, `738`. -/
def nodes (fn : Fn K) (xmin : K) : List K :=
  (AM.linspace (fn.log10 xmin) (fn.log10 xmin + 20) 10001).map (fn.pow 10)

/-- `xdif`, `galprops_am.py:617`, `661`, `695`, `739`. -/
def spacing (fn : Fn K) : List K → K
  | a :: b :: _ => fn.log10 b - fn.log10 a
  | _ => 0

/-- `modified_schechter_gen.lum_function` before the cut, `galprops_am.py:611`. -/
def modSchechter (fn : Fn K) (phi0 x0 alpha sigma x : K) : K :=
  phi0 * fn.pow (x / x0) (1 - alpha) * fn.exp (-1 / (2 * sigma ^ 2) * fn.log10 (1 + x / x0) ^ 2)

/-- `double_power_law_gen.lum_function` before the cut, `galprops_am.py:689`. -/
def doublePower (fn : Fn K) (phi0 x0 alpha beta x : K) : K :=
  phi0 * (fn.pow (x / x0) alpha + fn.pow (x / x0) beta)⁻¹

/-- The cut, `galprops_am.py:612`, `690`, for one element of an array. -/
def cutoff (xmin : K) (shape : K → K) (x : K) : K := if x < xmin then 0 else shape x

/-- `lum_function` for a number: the assignment of line 612 or 690 fails. -/
def lumNumber (_shape : K → K) (_xmin _x : K) : Except Err K := .error .typeError

/-- `np.cumsum`, with the sum of what comes before. -/
def cumsum : K → List K → List K
  | _, [] => []
  | s, x :: xs => (s + x) :: cumsum (s + x) xs

/-- `np.interp(x, xp, fp)`. -/
def interpD (pts : List (K × K)) (x : K) : K :=
  match pts with
  | [] => 0
  | p :: rest => AM.interp id p.2 ((p :: rest).getLast (by simp)).2 p rest x

/-- The points of the table of `lum_function_int`, `galprops_am.py:616-618`, `694-696`. -/
def countTable (shape : K → K) (xmin dx : K) (xs : List K) : List (K × K) :=
  xs.zip ((cumsum 0 (xs.reverse.map (cutoff xmin shape))).reverse.map (fun y => y * dx))

/-- `lum_function_int`, `galprops_am.py:615-622`, `693-700`. -/
def countAbove (shape : K → K) (xmin dx : K) (xs : List K) (x : K) : K :=
  interpD (countTable shape xmin dx xs) x

/-- `_cdf` for one element, `galprops_am.py:637-650`, `715-728`; NaN if the total is zero. -/
def cdfTable (shape : K → K) (xmin dx : K) (xs : List K) (x : K) : Option K :=
  if x < xmin then some 0
  else if countAbove shape xmin dx xs xmin = 0 then none
  else some ((countAbove shape xmin dx xs xmin - countAbove shape xmin dx xs x) /
    countAbove shape xmin dx xs xmin)

/-- `_pdf` for one element, `galprops_am.py:624-635`, `702-713`. -/
def pdfTable (shape : K → K) (xmin dx : K) (xs : List K) (x : K) : Option K :=
  if countAbove shape xmin dx xs xmin = 0 then none
  else some (cutoff xmin shape x / countAbove shape xmin dx xs xmin)

/-- The points of the table of `_ppf`, `galprops_am.py:660-663`, `738-741`. -/
def quantileTable (shape : K → K) (xmin dx : K) (xs : List K) : List (K × K) :=
  let ys := (cumsum 0 (xs.map (cutoff xmin shape))).map (fun y => y * dx)
  (ys.map (fun y => y / ys.getLastD 1)).zip xs

/-- `_ppf` for one element, `galprops_am.py:652-665`, `730-743`. -/
def ppfTable (shape : K → K) (xmin dx : K) (xs : List K) (q : K) : K :=
  interpD (quantileTable shape xmin dx xs) q

/-- A tabulated distribution: its shape, `xmin` and whether `_argcheck` accepts the parameters. -/
structure Tab (K : Type) where
  shape : K → K
  xmin : K
  accepted : Bool

/-- `modified_schechter_gen()(phi0, x0, alpha, sigma, xmin)`, `galprops_am.py:605-682`. -/
def modified (fn : Fn K) (phi0 x0 alpha sigma xmin : K) : Tab K :=
  ⟨modSchechter fn phi0 x0 alpha sigma, xmin, decide (¬ (x0 ≤ 0 ∨ xmin ≤ 0 ∨ sigma ≤ 0))⟩

/-- `double_power_law_gen()(phi0, x0, alpha, beta, xmin)`, `galprops_am.py:684-757`. -/
def doubled (fn : Fn K) (phi0 x0 alpha beta xmin : K) : Tab K :=
  ⟨doublePower fn phi0 x0 alpha beta, xmin, decide (¬ (x0 ≤ 0 ∨ xmin ≤ 0))⟩

/-- `cdf` of scipy for one value: the support is from `xmin` to `xmin*1e20`. -/
def Tab.cdf (fn : Fn K) (d : Tab K) (x : K) : Option K :=
  if d.accepted = false then none
  else if x ≤ d.xmin then some 0
  else if d.xmin * 10 ^ 20 ≤ x then some 1
  else cdfTable d.shape d.xmin (spacing fn (nodes fn d.xmin)) (nodes fn d.xmin) x

/-- `pdf` of scipy for one value. -/
def Tab.pdf (fn : Fn K) (d : Tab K) (x : K) : Option K :=
  if d.accepted = false then none
  else if x < d.xmin ∨ d.xmin * 10 ^ 20 < x then some 0
  else pdfTable d.shape d.xmin (spacing fn (nodes fn d.xmin)) (nodes fn d.xmin) x

/-- `ppf` of scipy for one value. -/
def Tab.ppf (fn : Fn K) (d : Tab K) (q : K) : Option K :=
  if d.accepted = false ∨ q < 0 ∨ 1 < q then none
  else if q = 0 then some d.xmin
  else if q = 1 then some (d.xmin * 10 ^ 20)
  else some (ppfTable d.shape d.xmin (spacing fn (nodes fn d.xmin)) (nodes fn d.xmin) q)

/-- `lum_function_int` with the parameters of the distribution. -/
def Tab.count (fn : Fn K) (d : Tab K) (x : K) : K :=
  countAbove d.shape d.xmin (spacing fn (nodes fn d.xmin)) (nodes fn d.xmin) x

end

/-! ## Schechter functions -/

/-- The functions of `scipy.special` that are used. -/
structure Special where
  gamma : ℝ → ℝ
  gammaincc : ℝ → ℝ → ℝ
  expi : ℝ → ℝ

/-- `amod = a%1`, `galprops_am.py:368`, `510`. -/
noncomputable def amod (a : ℝ) : ℝ := a - ⌊a⌋

/-- `n`, `galprops_am.py:369-370`, `511-512`. -/
noncomputable def steps (a : ℝ) : ℕ := (-⌊a⌋).toNat

/-- `gp` before the loop, `galprops_am.py:372-378`, `381-389`, `514-520`, `523-531`. -/
noncomputable def startValue (sp : Special) (a x : ℝ) : ℝ :=
  if 0 < a then sp.gamma a * sp.gammaincc a x
  else if amod a = 0 then -sp.expi (-x)
  else sp.gamma (amod a) * sp.gammaincc (amod a) x

/-- One pass of the loop, `galprops_am.py:406-411`, `548-553`. -/
noncomputable def oneStep (am x : ℝ) (i : ℕ) (gp : ℝ) : ℝ :=
  (gp - x ^ (am - ((i : ℝ) + 1)) * Real.exp (-x)) / (am - ((i : ℝ) + 1))

/-- `_uppergammamod` if `a` is one value, `galprops_am.py:372-378`, `406-408`, `514-520`, `548-550`. -/
noncomputable def upperMod (sp : Special) (a x : ℝ) : ℝ :=
  (List.range (steps a)).foldl (fun gp i => oneStep (amod a) x i gp) (startValue sp a x)

/-- One pass of the loop for arrays, `galprops_am.py:411`, `553`: `x` is not restricted to the elements
with `n>1`, so that the lengths differ unless these are all. -/
noncomputable def arrayStep (i : ℕ) (as xs gps : List ℝ) : Except Err (List ℝ) :=
  if ∀ a ∈ as, 1 < steps a then
    .ok (List.zipWith (fun p gp => oneStep (amod p.1) p.2 i gp) (as.zip xs) gps)
  else .error .valueError

/-- The passes one after the other. -/
noncomputable def arrayLoop (as xs : List ℝ) : List ℕ → List ℝ → Except Err (List ℝ)
  | [], gps => .ok gps
  | i :: rest, gps =>
    match arrayStep i as xs gps with
    | .error e => .error e
    | .ok gps' => arrayLoop as xs rest gps'

/-- `np.max(n)`. -/
noncomputable def maxSteps (as : List ℝ) : ℕ := (as.map steps).foldl max 0

/-- `_uppergammamod` if `a` and `x` are arrays of the same length, two or more, `galprops_am.py:380-389`,
`406-413`, `522-531`, `548-555`. -/
noncomputable def upperArray (sp : Special) (as xs : List ℝ) : Except Err (List ℝ) :=
  arrayLoop as xs (List.range (maxSteps as)) (List.zipWith (startValue sp) as xs)

/-- A Schechter function, or the sum of two: `x0`, slopes and amplitudes, and `xmin`. -/
structure Schechter where
  x0 : ℝ
  parts : List (ℝ × ℝ)       -- alpha, phi
  xmin : ℝ

/-- `schechter_gen()(x0, alpha, phi0, xmin)`, `galprops_am.py:317-457`. -/
def single (x0 alpha phi0 xmin : ℝ) : Schechter := ⟨x0, [(alpha, phi0)], xmin⟩

/-- `double_schechter_gen()(x0, alpha1, phi1, alpha2, phi2, xmin)`, `galprops_am.py:459-603`. -/
def double (x0 alpha1 phi1 alpha2 phi2 xmin : ℝ) : Schechter :=
  ⟨x0, [(alpha1, phi1), (alpha2, phi2)], xmin⟩

/-- `lum_function` for one value, `galprops_am.py:320-327`, `462-469`. -/
noncomputable def Schechter.lum (d : Schechter) (x : ℝ) : ℝ :=
  if x < d.xmin then 0
  else Real.exp (-x / d.x0) * (d.parts.map (fun p => p.2 * (x / d.x0) ^ p.1)).sum * 1 / d.x0

/-- `int` of `lum_function_int` for one value before the cut, `galprops_am.py:330`, `472`. -/
noncomputable def Schechter.above (sp : Special) (d : Schechter) (x : ℝ) : ℝ :=
  (d.parts.map (fun p => p.2 * upperMod sp (p.1 + 1) (x / d.x0))).sum

/-- `lum_function_int` for a number, `galprops_am.py:329-337`, `471-479`. -/
noncomputable def Schechter.countNumber (sp : Special) (d : Schechter) (x : ℝ) : ℝ :=
  if x < d.xmin then 1 else d.above sp x

/-- `lum_function_int` for one element of an array, if the parameters are numbers or arrays of length
one, `galprops_am.py:329-332`, `471-474`. -/
noncomputable def Schechter.countElem (sp : Special) (d : Schechter) (x : ℝ) : ℝ :=
  if x < d.xmin then d.above sp d.xmin else d.above sp x

/-- One term of `int` if the parameters are arrays as long as `x`. -/
noncomputable def arrayTerm (sp : Special) (n : ℕ) (x0 : ℝ) (p : ℝ × ℝ) (xs : List ℝ) :
    Except Err (List ℝ) :=
  match upperArray sp (List.replicate n (p.1 + 1)) (xs.map (fun x => x / x0)) with
  | .error e => .error e
  | .ok us => .ok (us.map (fun u => p.2 * u))

/-- `int` if the parameters are arrays as long as `x`: the terms are added. -/
noncomputable def arrayTerms (sp : Special) (n : ℕ) (x0 : ℝ) (xs : List ℝ) :
    List (ℝ × ℝ) → Except Err (List ℝ)
  | [] => .ok (List.replicate n 0)
  | p :: ps =>
    match arrayTerm sp n x0 p xs with
    | .error e => .error e
    | .ok us =>
      match arrayTerms sp n x0 xs ps with
      | .error e => .error e
      | .ok vs => .ok (List.zipWith (· + ·) us vs)

/-- `lum_function_int` for arrays of length two or more if the parameters are arrays of the same length,
`galprops_am.py:329-332`, `471-474`: as many values as the array has are assigned to the elements below
`xmin`, which fails unless these are all. -/
noncomputable def Schechter.countArray (sp : Special) (d : Schechter) (xs : List ℝ) :
    Except Err (List ℝ) :=
  match arrayTerms sp xs.length d.x0 xs d.parts with
  | .error e => .error e
  | .ok _ =>
    match arrayTerms sp xs.length d.x0 (List.replicate xs.length d.xmin) d.parts with
    | .error e => .error e
    | .ok vs => if xs.all (fun x => decide (x < d.xmin)) then .ok vs else .error .valueError

/-- `_cdf` for one element of an array, if the parameters are arrays of length one,
`galprops_am.py:422-428`, `564-570`; NaN if the total is zero. -/
noncomputable def Schechter.cdfElem (sp : Special) (d : Schechter) (x : ℝ) : Option ℝ :=
  if x < d.xmin then some 0
  else if d.countElem sp d.xmin = 0 then none
  else some ((d.countElem sp d.xmin - d.countElem sp x) / d.countElem sp d.xmin)

/-- `_cdf` for arrays of length two or more if the parameters are arrays of the same length: `norm` and
`int`. -/
noncomputable def Schechter.cdfArray (sp : Special) (d : Schechter) (xs : List ℝ) :
    Except Err (List (Option ℝ)) :=
  match d.countArray sp (List.replicate xs.length d.xmin) with
  | .error e => .error e
  | .ok norms =>
    match d.countArray sp xs with
    | .error e => .error e
    | .ok ints => .ok (List.zipWith (fun n i => if n = 0 then none else some ((n - i) / n)) norms ints)

/-- `_argcheck`, `galprops_am.py:446-457`, `590-603`. -/
noncomputable def Schechter.accepted (d : Schechter) : Bool :=
  decide (¬ (d.x0 ≤ 0 ∨ d.xmin ≤ 0)) && d.parts.all (fun p => decide (0 ≤ p.2))

/-- `cdf` of scipy for an array. -/
noncomputable def Schechter.cdf (sp : Special) (d : Schechter) (xs : List ℝ) :
    Except Err (List (Option ℝ)) :=
  if d.accepted = false then .ok (xs.map (fun _ => none))
  else if xs.all (fun x => decide (d.xmin < x)) ∧ 1 < xs.length then d.cdfArray sp xs
  else .ok (xs.map (fun x => if d.xmin < x then d.cdfElem sp x else some 0))

/-- `pdf` of scipy for an array, `galprops_am.py:415-420`, `557-562`: `norm` is computed and not used. -/
noncomputable def Schechter.pdf (sp : Special) (d : Schechter) (xs : List ℝ) :
    Except Err (List (Option ℝ)) :=
  if d.accepted = false then .ok (xs.map (fun _ => none))
  else if xs.all (fun x => decide (d.xmin ≤ x)) ∧ 1 < xs.length then
    match d.countArray sp (List.replicate xs.length d.xmin) with
    | .error e => .error e
    | .ok _ => .ok (xs.map (fun x => some (d.lum x)))
  else .ok (xs.map (fun x => some (d.lum x)))

/-- `xint`, `galprops_am.py:437`, `581`. -/
noncomputable def logNodes (xmin : ℝ) : List ℝ :=
  (AM.linspace (Real.logb 10 xmin) (Real.logb 10 xmin + 20) 10001).map (fun y => (10 : ℝ) ^ y)

/-- The points of the table of `_ppf`, `galprops_am.py:437-439`, `581-583`. -/
noncomputable def Schechter.quantiles (sp : Special) (d : Schechter) : List (ℝ × ℝ) :=
  (logNodes d.xmin).map (fun x => (1 - d.countElem sp x / d.countNumber sp d.xmin, x))

/-- `ppf` of scipy for one value, with `_ppf`, `galprops_am.py:430-441`, `572-585`; the upper end of the
support is infinite. -/
noncomputable def Schechter.ppf (sp : Special) (d : Schechter) (q : ℝ) : Option (WithTop ℝ) :=
  if d.accepted = false ∨ q < 0 ∨ 1 < q then none
  else if q = 0 then some (d.xmin : WithTop ℝ)
  else if q = 1 then some ⊤
  else some ((interpD (d.quantiles sp) q : ℝ) : WithTop ℝ)

end Verif.LF
