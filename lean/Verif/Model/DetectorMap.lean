import Verif.Model.GridConv
import Verif.Model.GridReduce

/-!
# Model of the map of one detector (`simim/instrument/instrument.py:754-813`, `872-885`)

Here the field is a `Grid`, and the beam, the convolution and the average over the channels are those of the grids.
(The bookkeeping of detectors, fields and maps around this is in `Verif.Model.Instrument`.)  The response functions
are parameters: `spatial x y freq` is `spatial_response(x, y, freq, **spatial_kwargs)`, `spectral freq` is
`spectral_response(freq, **spectral_kwargs)`.

Simplifications: the field has three axes (checked when it is added); divisors are not zero (numpy gives NaN).
-/

namespace Verif.Map

open Verif.Sim (Err)

variable {K : Type}

/-- The argument `kernel_size` (787-795): not given, a number as documented, or one number for each axis. -/
inductive KernelArg
  | none
  | int (n : ℤ)
  | pair (m n : ℤ)
deriving DecidableEq

/-- The argument `spatial_response_norm`. -/
inductive BeamNorm
  | peak
  | area
  | none
  | other
deriving DecidableEq

section
variable [Field K] [LinearOrder K] [FloorRing K]

/-- The number of cells of the kernel, lines 785-786; a number cannot be indexed in line 795. -/
def kernelCells (best : Option K) (pix : List K) : KernelArg → Except Err (ℤ × ℤ)
  | .int _ => .error .typeError
  | .pair m n => .ok (m, n)
  | .none =>
    match best with
    | none => .error .valueError
    | some b => .ok (rint (b / pix.getD 0 0) * 10 + 1, rint (b / pix.getD 1 0) * 10 + 1)

/-- The grid of the beam without values, lines 793-798. -/
def beamGrid (g : Grid K K) (m n : ℤ) : Except Err (Grid K K) :=
  Grid.new 1 ⟨g.center.isInt, [0, 0, g.center.vals.getD 2 0]⟩
    ⟨g.pix.isInt && g.side.isInt, [(m : K) * g.pix.vals.getD 0 0, (n : K) * g.pix.vals.getD 1 0, g.side.vals.getD 2 0]⟩
    g.pix (some g.axunits) (some g.gridunits)

/-- The values of the beam in channel `k`. -/
def channelValues (a : Arr K) (k : ℕ) : List K :=
  (List.range (a.shape.getD 0 0)).flatMap (fun i =>
    (List.range (a.shape.getD 1 0)).map (fun j => a.get [i, j, k, 0]))

/-- What channel `k` is divided by, lines 806-809. -/
def channelNorm (norm : BeamNorm) (a : Arr K) (k : ℕ) : K :=
  match norm with
  | .peak => (channelValues a k).max?.getD 1
  | .area => (channelValues a k).sum
  | _ => 1

/-- Lines 806-809. -/
def normalise (norm : BeamNorm) (a : Arr K) : Arr K :=
  ⟨a.shape, fun i => a.get i / channelNorm norm a (i.getD 2 0)⟩

/-- The values of the beam, lines 799-813. -/
def fillBeam (b : Grid K K) (spatial : List K → List K → List K → Except Err (Arr K)) (norm : BeamNorm) :
    Except Err (Grid K K) :=
  match spatial (b.centers.getD 0 []) (b.centers.getD 1 []) (b.centers.getD 2 []) with
  | .error e => .error e
  | .ok r =>
    if r.shape ++ [1] ≠ b.nPix ++ [b.nProps] then .error .valueError
    else .ok { b with grid := some (normalise norm ⟨r.shape ++ [1], fun i => r.get i.dropLast⟩), nObj := 0 }

/-- `_setup_beam`, lines 754-813. -/
def setupBeam (g : Grid K K) (best : Option K) (spatial : List K → List K → List K → Except Err (Arr K))
    (norm : BeamNorm) (kernel : KernelArg) : Except Err (Grid K K) :=
  if kernel = .none ∧ best = none then .error .valueError                       -- lines 782-783
  else if norm = .other then .error .valueError                                 -- lines 789-790
  else
    match kernelCells best g.pix.vals kernel with
    | .error e => .error e
    | .ok (m, n) =>
      match beamGrid g m n with
      | .error e => .error e
      | .ok b => fillBeam b spatial norm

/-- The map of one detector with a given beam, lines 880-885. -/
def mapWithBeam (g beam : Grid K K) (spectral : List K → Except Err (Arr K)) (pad : PadArg) :
    Except Err (Grid K K) :=
  match g.convolveNew beam (some [0, 1]) pad with
  | .error e => .error e
  | .ok c =>
    match spectral (c.centers.getD 2 []) with
    | .error e => .error e
    | .ok w => c.collapseNew [2] (some [w]) (some .average)

/-- The map of one detector, lines 872-885. -/
def detectorMap (g : Grid K K) (best : Option K) (spatial : List K → List K → List K → Except Err (Arr K))
    (spectral : List K → Except Err (Arr K)) (norm : BeamNorm := .peak) (kernel : KernelArg := .none)
    (pad : PadArg := .none) : Except Err (Grid K K) :=
  match setupBeam g best spatial norm kernel with
  | .error e => .error e
  | .ok b => mapWithBeam g b spectral pad

end

end Verif.Map
