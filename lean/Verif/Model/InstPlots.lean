import Verif.Model.Pictures
import Verif.Model.PyDict
import Mathlib.Algebra.Order.Group.Abs
import Mathlib.Algebra.Order.Field.Basic
import Mathlib.Data.Nat.Notation

/-!
# Model of the reference frequencies and the plots of instruments (`simim/instrument/instrument.py:574-606`, `998-1110`)

A response is a function of the frequency (its keyword arguments are fixed).  Numbers are exact.  Frequencies in the
search are given by their logarithm: `y e` is the spectral response at `10^e`, a number; `p10 e` is `10^e`.
-/

namespace Verif.InstPlot

open Verif.Map (Arr)
open Verif.Pic (Mesh pcolor)

variable {K W : Type}

/-- The exceptions. -/
inductive Err where
  | value | type | attribute
  deriving DecidableEq, Repr

section
variable [Field K] [LinearOrder K]

/-- `np.logspace(a, b, n+1)`: the logarithms. -/
def points (n : ℕ) (a b : K) : List K := (List.range (n + 1)).map (fun k : ℕ => a + k * ((b - a) / n))

/-- `x[np.nanargmax(y)]`: the first point with the largest value. -/
def best (y : K → K) : K → List K → K
  | x, [] => x
  | x, z :: l => if y x < y z then best y z l else best y x l

/-- The loop that looks for the maximum, lines 579-601; `last` is the result of the previous round (`xmaxlast`).
`none`: not finished after so many rounds; `some none`: given up, NaN. -/
def search (p10 : K → K) (y : K → K) (n : ℕ) : ℕ → K → K → Option K → Option (Option K)
  | 0, _, _, _ => none
  | fuel + 1, a, b, last =>
    let e := best y a (points n a b)
    if e = a ∨ e = b then some none
    else
      match last with
      | some l => if 1 / 100 < |p10 l - p10 e| then search p10 y n fuel (e - (b - a) / 4) (e + (b - a) / 4) (some e)
          else some (some e)
      | none => search p10 y n fuel (e - (b - a) / 4) (e + (b - a) / 4) (some e)

/-- The reference frequency, lines 574-606: the logarithm of the frequency found.  (A nominal frequency given is
used instead, lines 575-576.) -/
def found (p10 y : K → K) (rounds : ℕ) : Option (Option K) := search p10 y 50000 rounds (-20) 20 none

end

/-! ## The plots -/

/-- A detector: its reference frequency, the spectral response (one value for each frequency) and the spatial response
(lines 1058 and 1063: an array over both positions and one frequency). -/
structure Det (K W : Type) where
  reffreq : Option K
  spectral : List (Option K) → Except Err (List W)
  spatial : List K → List K → Option K → Except Err (Arr W)

/-- The limits of `plot_detector_response`. -/
structure Limits (K : Type) where
  xmin : Option K := none
  xmax : Option K := none
  ymin : Option K := none
  ymax : Option K := none
  fmin : Option K := none
  fmax : Option K := none
  fspatial : Option K := none

section
variable [Field K] [LinearOrder K]

/-- `np.linspace(a, b, n+1)`. -/
def linspace (n : ℕ) (a b : K) : List K := (List.range (n + 1)).map (fun k : ℕ => a + k * ((b - a) / n))

/-- The same with limits that may be NaN; the last value is `b`. -/
def linspaceN (n : ℕ) (a b : Option K) : List (Option K) :=
  match a, b with
  | some a, some b => (linspace n a b).map some
  | _, b => List.replicate n none ++ [b]

/-- The lesser (greater) of two numbers, NaN if one is (used in `np.min` and `np.max`, lines 1031 and 1033). -/
def both (f : K → K → K) : Option K → Option K → Option K
  | some a, some b => some (f a b)
  | _, _ => none

/-- `np.min` of the reference frequencies, NaN if one is; an empty list raises. -/
def extreme (f : K → K → K) (l : List (Option K)) : Except Err (Option K) :=
  match l with
  | [] => .error .value
  | x :: l => .ok (l.foldl (both f) x)

/-- What is drawn for one detector: the spectrum, the line at the reference frequency, the beam. -/
structure Panel (K W : Type) where
  name : String
  freqs : List (Option K)
  spectrum : List W
  line : Option K
  beam : Mesh K W

/-- `_check_detectors`, lines 182-191. -/
def checkNames (known names : List String) : Except Err Unit :=
  if names.all (fun n => decide (n ∈ known)) then
    if names.Nodup then .ok () else .error .value
  else .error .value

/-- The detectors to be plotted, lines 1025-1028. -/
def selected (known names : List String) : Except Err (List String) :=
  if names.length = 0 then .ok known
  else match checkNames known names with
    | .error e => .error e
    | .ok () => .ok names

/-- `self.detectors[n]`; all the names in `self.detector_names` are there. -/
def lookup (dets : PyDict String (Det K W)) (n : String) : Except Err (String × Det K W) :=
  match dets.get? n with
  | some d => .ok (n, d)
  | none => .error .value

/-- A limit in frequency, lines 1030-1033. -/
def freqLimit (given : Option K) (f : K → K → K) (k : K) (ref : List (Option K)) : Except Err (Option K) :=
  match given with
  | some x => .ok (some x)
  | none =>
    match extreme f ref with
    | .error e => .error e
    | .ok x => .ok (x.map (fun x => k * x))

/-- `array[:,:,0]`, line 1063. -/
def firstSlice (a : Arr W) : Arr W := ⟨a.shape.take 2, fun i => a.get (i ++ [0])⟩

/-- One detector, lines 1046-1063. -/
def panel (l : Limits K) (fmin fmax : Option K) (x0 x1 y0 y1 : K) (name : String) (d : Det K W) :
    Except Err (Panel K W) :=
  let fs := l.fspatial.or d.reffreq
  let f := linspaceN 999 fmin fmax
  match d.spectral f with
  | .error e => .error e
  | .ok sp =>
    let x := linspace 99 x0 x1
    let y := linspace 99 y0 y1
    match d.spatial x y fs with
    | .error e => .error e
    | .ok a =>
      match pcolor x y (firstSlice a) with
      | .error _ => .error .type
      | .ok m => .ok ⟨name, f, sp, fs, m⟩

/-- The spatial limits, lines 1035-1044. -/
def box (best : Option K) (l : Limits K) : Except Err (K × K × K × K) :=
  match l.xmin, l.xmax, l.ymin, l.ymax, best with
  | some a, some b, some c, some d, _ => .ok (a, b, c, d)
  | a, b, c, d, some r => .ok (a.getD (-5 * r), b.getD (5 * r), c.getD (-5 * r), d.getD (5 * r))
  | _, _, _, _, none => .error .value

/-- `plot_detector_response`, lines 998-1067; `known` is `self.detector_names`. -/
def plotDetectors (known : List String) (dets : PyDict String (Det K W)) (best : Option K) (names : List String)
    (l : Limits K) : Except Err (List (Panel K W)) :=
  match selected known names with
  | .error e => .error e
  | .ok names =>
    match mapE (lookup dets) names with
    | .error e => .error e
    | .ok ds =>
      match freqLimit l.fmin min (9 / 10) (ds.map (fun q => q.2.reffreq)) with
      | .error e => .error e
      | .ok fmin =>
        match freqLimit l.fmax max (11 / 10) (ds.map (fun q => q.2.reffreq)) with
        | .error e => .error e
        | .ok fmax =>
          match box best l with
          | .error e => .error e
          | .ok (x0, x1, y0, y1) => mapE (fun q => panel l fmin fmax x0 x1 y0 y1 q.1 q.2) ds

/-- The attributes of an instrument that `plot_spectral_response` uses: all are there (lines 137-179) but
`detector_freqs`, which is set nowhere. -/
def attributes : List String := ["detectors", "detector_names", "spectral_unit"]

/-- `plot_spectral_response`, lines 1070-1110: `self.detectors.values` is a method and cannot be iterated over
(`TypeError`); then `self.detector_freqs` is looked up.  What it would draw after that is left out. -/
def plotSpectra (fmin fmax : Option K) : Except Err Unit :=
  match fmin with
  | none => .error .type
  | some _ =>
    match fmax with
    | none => .error .type
    | some _ => if "detector_freqs" ∈ attributes then .ok () else .error .attribute

end

end Verif.InstPlot
