import Mathlib.Analysis.SpecialFunctions.Pow.Real
import Mathlib.Analysis.SpecialFunctions.Log.Basic
import Verif.Model.Instrument
import Verif.Model.Grid

/-!
# Model of the response and noise functions of instruments (`simim/instrument/spatial_response.py`,
`spectral_response.py`, `noise_functions.py`, `_helpers.py:5-18`)

Simplifications: numbers are real numbers; widths are not zero (numpy gives NaN or zero for them) and, for
`gauss_psf_freq_dependent`, the frequencies divided by `freq0` are positive (numpy gives NaN for a power of a negative
number).  `np.exp`, `np.log`, `np.sqrt` and powers are exact.
-/

namespace Verif.Inst

noncomputable section

/-- An axis passed to a response function: a number (or an array without axes), a list or array of numbers, an array
with more than one axis, or something numpy cannot make into an array. -/
inductive AxisArg
  | num (x : ℝ)
  | arr (l : List ℝ)
  | deep
  | bad

/-- `_check_shape`, `_helpers.py:5-18`. -/
def checkShape : AxisArg → Except Err (List ℝ)
  | .num x => .ok [x]
  | .arr l => .ok l
  | .deep => .error .value
  | .bad => .error .value

/-- The three axes, `spatial_response.py:27-29` and `64-66`. -/
def checkThree (dx dy freq : AxisArg) : Except Err (List ℝ × List ℝ × List ℝ) :=
  match checkShape dx with
  | .error e => .error e
  | .ok x =>
    match checkShape dy with
    | .error e => .error e
    | .ok y =>
      match checkShape freq with
      | .error e => .error e
      | .ok f => .ok (x, y, f)

/-- An array made from three axes by broadcasting, `spatial_response.py:31-34`, `68-72`: shape
`(len(dx), len(dy), len(freq))`. -/
def outer (x y f : List ℝ) (v : ℝ → ℝ → ℝ → ℝ) : Map.Arr ℝ :=
  ⟨[x.length, y.length, f.length], fun i =>
    match i with
    | [a, b, c] => v (x.getD a 0) (y.getD b 0) (f.getD c 0)
    | _ => 0⟩

/-- Widths and centre of a beam: `fwhmx=1, fwhmy=1, cx=0, cy=0`, `spatial_response.py:5` and `37`. -/
structure BeamArgs where
  fwhmx : ℝ := 1
  fwhmy : ℝ := 1
  cx : ℝ := 0
  cy : ℝ := 0

/-- `gauss_psf`, `spatial_response.py:5-35`. -/
def gaussPsf (dx dy freq : AxisArg) (o : BeamArgs) : Except Err (Map.Arr ℝ) :=
  match checkThree dx dy freq with
  | .error e => .error e
  | .ok (x, y, f) => .ok (outer x y f (fun x y _ =>
      Real.exp (-4 * Real.log 2 * ((x - o.cx) ^ 2 / o.fwhmx ^ 2 + (y - o.cy) ^ 2 / o.fwhmy ^ 2)) * 1))

/-- The width at a frequency, `spatial_response.py:70-71`. -/
def widthAt (fwhm f f0 e : ℝ) : ℝ := fwhm * (f / f0) ^ (-e)

/-- `gauss_psf_freq_dependent`, `spatial_response.py:37-73`; the defaults are `freq0=100e9, freq_exp=-1`. -/
def gaussPsfFreq (dx dy freq : AxisArg) (o : BeamArgs) (f0 : ℝ := 100 * 10 ^ 9) (e : ℝ := -1) :
    Except Err (Map.Arr ℝ) :=
  match checkThree dx dy freq with
  | .error e => .error e
  | .ok (x, y, f) => .ok (outer x y f (fun x y f =>
      Real.exp (-4 * Real.log 2 *
        ((x - o.cx) ^ 2 / widthAt o.fwhmx f f0 e ^ 2 + (y - o.cy) ^ 2 / widthAt o.fwhmy f f0 e ^ 2))))

/-- `gauss_response`, `spectral_response.py:4-8`. -/
def gaussResponse (freq : AxisArg) (A : ℝ := 1) (f0 : ℝ := 100) (fwhm : ℝ := 1) : Except Err (List ℝ) :=
  match checkShape freq with
  | .error e => .error e
  | .ok f => .ok (f.map (fun f => A * Real.exp (-4 * Real.log 2 * ((f - f0) ^ 2 / fwhm ^ 2))))

/-- `boxcar_response`, `spectral_response.py:10-15`. -/
def boxcarResponse (freq : AxisArg) (A : ℝ := 1) (f0 : ℝ := 100) (width : ℝ := 1) : Except Err (List ℝ) :=
  match checkShape freq with
  | .error e => .error e
  | .ok f => .ok (f.map (fun f => if f ≥ f0 - width / 2 ∧ f ≤ f0 + width / 2 then A else 0))

/-- The numbers from a standard normal distribution that a generator in state `g` gives next: `next` gives one number
and the new state. -/
def draws {G : Type} (next : G → ℝ × G) : ℕ → G → List ℝ × G
  | 0, g => ([], g)
  | n + 1, g => ((next g).1 :: (draws next n (next g).2).1, (draws next n (next g).2).2)

/-- `zero_noise`, `noise_functions.py:3-24`. -/
def zeroNoise {G : Type} (n : ℕ) (_dt : ℝ) (g : G) : List (Option ℝ) × G := (List.replicate n (some 0), g)

/-- `white_noise`, `noise_functions.py:26-59`: the noise and the new state of the generator.  `none` is a value that
is not finite, for time steps that are not positive; a negative standard deviation raises. -/
def whiteNoise {G : Type} (next : G → ℝ × G) (n : ℕ) (dt rms bias : ℝ) (g : G) :
    Except Err (List (Option ℝ)) × G :=
  if 0 ≤ dt ∧ rms < 0 then (.error .value, g)
  else if 0 < dt then
    (.ok ((draws next n g).1.map (fun z => some (bias + rms / Real.sqrt dt * z))), (draws next n g).2)
  else (.ok ((draws next n g).1.map (fun _ => none)), (draws next n g).2)

/-- `white_noise` with its argument `rng`, `noise_functions.py:56-59`: without one a new generator is made from
numbers of the operating system (`seed`). -/
def whiteNoiseArg {G : Type} (next : G → ℝ × G) (seed : G) (rng : Option G) (n : ℕ) (dt : ℝ) (rms : ℝ := 1)
    (bias : ℝ := 0) : Except Err (List (Option ℝ)) × Option G :=
  match rng with
  | none => ((whiteNoise next n dt rms bias seed).1, none)
  | some g => ((whiteNoise next n dt rms bias g).1, some (whiteNoise next n dt rms bias g).2)

end

end Verif.Inst
