import Verif.Model.Exc
import Verif.Model.SnapMeta
import Mathlib.Order.WithBot
import Mathlib.Algebra.Order.Field.Basic
import Mathlib.Data.List.Sort

/-!
# Model of abundance matching (`simim/galprops/galprops_am.py:5-314`)

Numbers are elements of an ordered field; results may also be NaN (`none`) or infinite (`⊤`).  A
distribution (`scipy.stats.rv_continuous`) is given by its functions `cdf` and `ppf`.  Negative infinity
and NaN among the inputs are left out.
-/

namespace Verif.AM

open Verif.Sim (Err)

variable {K : Type}

/-- A number that may be infinite or NaN. -/
abbrev V (K : Type) := Option (WithTop K)

/-- A distribution. -/
structure Dist (K : Type) where
  cdf : WithTop K → K
  ppf : K → V K

/-- The values of an option `extrapolate_...`: `'flat'`, `'none'`, something `float` accepts (`'nan'` among
others), or anything else. -/
inductive Extrap (K : Type) where
  | flat
  | none
  | value (v : V K)
  | bad

/-- The parameters of `am_dfcat` and `am_dfdf` other than the catalogue and the distributions. -/
structure Params (K : Type) where
  low1 : K                  -- missing_pmass_low_p1
  high1 : K
  low2 : K
  high2 : K
  exLow1 : Extrap K
  exHigh1 : Extrap K
  exLow2 : Extrap K
  exHigh2 : Extrap K
  reverse : Bool

section
variable [Field K] [LinearOrder K]

/-- The checks, `galprops_am.py:73-78` and `211-216`. -/
def checkMissing (p : Params K) : Except Err Unit :=
  if [p.low1, p.low2, p.high1, p.high2].any (fun x => decide (x > 1)) then .error .valueError
  else if [p.low1, p.low2, p.high1, p.high2].any (fun x => decide (x < 0)) then .error .valueError
  else if p.low1 + p.high1 > 1 ∨ p.low2 + p.high2 > 1 then .error .valueError
  else .ok ()

/-- One filler, `galprops_am.py:84-91` and `222-229`; `limit` is the limiting value. -/
def filler (limit : WithTop K) : Extrap K → Except Err (V K)
  | .flat => .ok (some limit)
  | .none => .ok none
  | .value v => .ok v
  | .bad => .error .valueError

/-- The four fillers. -/
structure Fillers (K : Type) where
  f0 : V K
  f1 : V K
  f2 : V K
  f3 : V K

/-- `galprops_am.py:81-91` and `219-229`. -/
def fillers (p : Params K) (min1 max1 min2 max2 : WithTop K) : Except Err (Fillers K) :=
  match filler min1 p.exLow1 with
  | .error e => .error e
  | .ok f0 =>
    match filler max1 p.exHigh1 with
    | .error e => .error e
    | .ok f1 =>
      match filler min2 p.exLow2 with
      | .error e => .error e
      | .ok f2 =>
        match filler max2 p.exHigh2 with
        | .error e => .error e
        | .ok f3 => .ok ⟨f0, f1, f2, f3⟩

/-- The part of `np.interp` from the point `p` on, for `x ≥ p.1`: the last point with `xp ≤ x` is the
left end of the interval used. -/
def interpFrom {α : Type} (emb : K → α) (right : α) (x : K) : K × K → List (K × K) → α
  | p, [] => if p.1 < x then right else emb p.2
  | p, q :: rest =>
    if q.1 ≤ x then interpFrom emb right x q rest
    else if p.1 = x then emb p.2
    else emb ((q.2 - p.2) / (q.1 - p.1) * (x - p.1) + p.2)

/-- `np.interp(x, xp, fp, left, right)` for the points `(xp, fp)`, of which there is at least one. -/
def interp {α : Type} (emb : K → α) (left right : α) (p : K × K) (rest : List (K × K)) (x : K) : α :=
  if x < p.1 then left else interpFrom emb right x p rest

/-- `np.linspace(a, b, n)`. -/
def linspace (a b : K) (n : ℕ) : List K :=
  (List.range n).map (fun (i : ℕ) => a + (i : K) * ((b - a) / ((n : K) - 1)))

/-- `cdf_func_p2` for one number, `galprops_am.py:101-111`, also `cdf_func_p1`, `232-242` and
`cdf_func_p2`, `261-271`.  NaN if the limits have the same cumulative fraction. -/
def cdfScalar (d : Dist K) (low high : K) (mn : K) (mx : WithTop K) (x : K) : Option K :=
  if x < mn then some 0
  else if mx < (x : WithTop K) then some 1
  else if d.cdf mx - d.cdf mn = 0 then none
  else some (low + (d.cdf x - d.cdf mn) / (d.cdf mx - d.cdf mn) * (1 - high - low))

/-- The same for one element of an array, lines 103-105, 234-236, 263-265. -/
def cdfElem (d : Dist K) (low high : K) (mn : K) (mx : WithTop K) (x : K) : Option K :=
  let c := if d.cdf mx - d.cdf mn = 0 then none
    else some (low + (d.cdf x - d.cdf mn) / (d.cdf mx - d.cdf mn) * (1 - high - low))
  let c := if x < mn then some 0 else c
  if mx < (x : WithTop K) then some 1 else c

/-- `cstar`, `galprops_am.py:113`, `244`, `273`; not a number if nothing is left between the missing
fractions. -/
def cstar (d : Dist K) (low high : K) (mn : K) (mx : WithTop K) (cum : K) : Option K :=
  if 1 - high - low = 0 then none
  else some ((cum - low) / (1 - high - low) * (d.cdf mx - d.cdf mn) + d.cdf mn)

/-- `rv.ppf(cstar)`; NaN for NaN. -/
def quantile (d : Dist K) : Option K → V K
  | none => none
  | some c => d.ppf c

/-- `ppf_func_p2` for one number, `galprops_am.py:120-126`, also `251-257` and `280-286`. -/
def ppfScalar (d : Dist K) (low high : K) (mn : K) (mx : WithTop K) (fLow fHigh : V K) (cum : K) : V K :=
  if cum < low then fLow
  else if cum > 1 - high then fHigh
  else quantile d (cstar d low high mn mx cum)

/-- `ppf_func_p2` for one element of an array, `galprops_am.py:115-119`, also `246-250` and
`275-279`: the array begins as zeros, then three assignments. -/
def ppfElem (d : Dist K) (low high : K) (mn : K) (mx : WithTop K) (fLow fHigh : V K) (cum : K) : V K :=
  let v : V K := some ((0 : K) : WithTop K)
  let v := if cum > low ∧ cum < 1 - high then quantile d (cstar d low high mn mx cum) else v
  let v := if cum < low then fLow else v
  if cum > 1 - high then fHigh else v

/-- `1 - cum` if the order is reversed, `galprops_am.py:128-138`, `290-300`. -/
def turn (reverse : Bool) (cum : K) : K := if reverse then 1 - cum else cum

/-- `ppf_func` for one element of an array that may be NaN: no comparison holds, so that the zero stays. -/
def ppfElemNan (d : Dist K) (low high : K) (mn : K) (mx : WithTop K) (fLow fHigh : V K) (reverse : Bool) :
    Option K → V K
  | none => some ((0 : K) : WithTop K)
  | some c => ppfElem d low high mn mx fLow fHigh (turn reverse c)

/-- The two functions that are returned, for a single number and for an array. -/
structure Matching (K : Type) where
  p2 : K → V K                        -- p2ofp1(number)
  p2s : List K → List (V K)           -- p2ofp1(array)
  p1 : K → V K                        -- p1ofp2(number)
  p1s : List K → List (V K)           -- p1ofp2(array)

/-- `ppf_func_p1` of `am_dfcat`, `galprops_am.py:98-99`. -/
def ppfCat (pts : (K × K) × List (K × K)) (f0 f1 : V K) (cum : K) : V K :=
  interp (fun x : K => (some (x : WithTop K) : V K)) f0 f1 pts.1 pts.2 cum

/-- `cdf_func_p1` of `am_dfcat`, `galprops_am.py:96-97`. -/
def cdfCat (pts : (K × K) × List (K × K)) (x : K) : K := interp id 0 1 pts.1 pts.2 x

/-- The points of the cumulative distribution of the catalogue, `galprops_am.py:93-94`: sorted values
and fractions. -/
def points (cat : List K) (low high : K) : List (K × K) :=
  (cat.insertionSort (· ≤ ·)).zip (linspace low (1 - high) cat.length)

/-- `am_dfcat`, `galprops_am.py:5-140`. -/
def amDfcat (cat : List K) (d : Dist K) (mn : K) (mx : WithTop K) (p : Params K) :
    Except Err (Matching K) :=
  match checkMissing p with
  | .error e => .error e
  | .ok () =>
    match cat.insertionSort (· ≤ ·), points cat p.low1 p.high1 with
    | lo :: los, q :: qs =>
      match fillers p (lo : WithTop K) (((lo :: los).getLast (by simp) : K) : WithTop K) (mn : WithTop K) mx with
      | .error e => .error e
      | .ok f =>
        let swap : (K × K) × List (K × K) := (q.swap, qs.map Prod.swap)
        .ok { p2 := fun x => ppfScalar d p.low2 p.high2 mn mx f.f2 f.f3 (turn p.reverse (cdfCat (q, qs) x))
              p2s := fun xs => xs.map (fun x =>
                ppfElem d p.low2 p.high2 mn mx f.f2 f.f3 (turn p.reverse (cdfCat (q, qs) x)))
              p1 := fun y => (cdfScalar d p.low2 p.high2 mn mx y).bind (fun c =>
                ppfCat swap f.f0 f.f1 (turn p.reverse c))
              p1s := fun ys => ys.map (fun y => (cdfElem d p.low2 p.high2 mn mx y).bind (fun c =>
                ppfCat swap f.f0 f.f1 (turn p.reverse c))) }
    | _, _ => .error .valueError                       -- np.min of nothing

/-- `am_dfdf`, `galprops_am.py:143-314`.  `ppf_func_p1` uses the fillers of property 2 (lines 249-254). -/
def amDfdf (d1 d2 : Dist K) (mn1 : K) (mx1 : WithTop K) (mn2 : K) (mx2 : WithTop K) (p : Params K) :
    Except Err (Matching K) :=
  match checkMissing p with
  | .error e => .error e
  | .ok () =>
    match fillers p (mn1 : WithTop K) mx1 (mn2 : WithTop K) mx2 with
    | .error e => .error e
    | .ok f =>
      .ok { p2 := fun x => (cdfScalar d1 p.low1 p.high1 mn1 mx1 x).bind (fun c =>
              ppfScalar d2 p.low2 p.high2 mn2 mx2 f.f2 f.f3 (turn p.reverse c))
            p2s := fun xs => xs.map (fun x => ppfElemNan d2 p.low2 p.high2 mn2 mx2 f.f2 f.f3 p.reverse
              (cdfElem d1 p.low1 p.high1 mn1 mx1 x))
            p1 := fun y => (cdfScalar d2 p.low2 p.high2 mn2 mx2 y).bind (fun c =>
              ppfScalar d1 p.low1 p.high1 mn1 mx1 f.f2 f.f3 (turn p.reverse c))
            p1s := fun ys => ys.map (fun y => ppfElemNan d1 p.low1 p.high1 mn1 mx1 f.f2 f.f3 p.reverse
              (cdfElem d2 p.low2 p.high2 mn2 mx2 y)) }

end
end Verif.AM
