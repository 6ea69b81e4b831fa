import Verif.Model.Instrument
import Verif.Model.DetectorMap
import Verif.Model.GridAdd

/-!
# Model of an instrument that observes grids (`simim/instrument/instrument.py`, `simim/map/gridder.py`)

`Verif.Model.Instrument` keeps the books of an instrument and leaves open what a beam, a convolution, an average over
the channels and a sample are.  Here they are those of the grids (`Verif.Model.DetectorMap`, `Verif.Model.GridAdd`).
What remains open are the values of the response and noise functions.
-/

namespace Verif.Inst

open Verif.Map (Grid Arr BeamNorm PadArg KernelArg)

/-- A position on the sky or a pointing offset: the numbers, and whether they are integers for numpy
(`instrument.py:497-501`, `949-951`, `981`).  Simplification: offsets that differ only in this are different, for
`_find_pointing_clones` (line 748) they are equal; this matters for integer positions only. -/
structure Point (K : Type) where
  isInt : Bool := false
  x : K
  y : K
deriving DecidableEq

/-- The values of the functions that detectors are given: `spatial_response(x, y, freq, **kwargs)` (799),
`spectral_response(freq, **kwargs)` (884), `noise_function(n, dt, **kwargs)` with its random numbers (972). -/
structure Lib (F D T S K : Type) where
  emptyKw : D
  spatial : F → D → List K → List K → List K → Except Sim.Err (Arr K)
  spectral : F → D → List K → Except Sim.Err (Arr K)
  noise : F → D → ℕ → T → S → Except Err (List K)

/-- The classes of exceptions raised by grids (`gridder.py`). -/
def ofSim : Sim.Err → Err
  | .valueError => .value
  | .keyError => .key
  | .typeError => .type
  | .indexError => .index
  | .attributeError => .attribute
  | .fileNotFound => .value

/-- An outcome of a grid as one of the instrument (exceptions are not caught). -/
def lift {α : Type} : Except Sim.Err α → Except Err α
  | .error e => .error (ofSim e)
  | .ok x => .ok x

/-- The argument `kernel_size` as it gets to `_setup_beam` (787-795). -/
def kernelArg : Option (ℤ × ℤ) → KernelArg
  | none => .none
  | some (m, n) => .pair m n

/-- `positions + offset` (981): the sum is an integer if both are. -/
def shiftPoint {K : Type} [Add K] (p o : Point K) : Point K := ⟨p.isInt && o.isInt, p.x + o.x, p.y + o.y⟩

/-- The sum of two numbers that may be NaN (983). -/
def addNaN {K : Type} [Add K] : Option K → Option K → Option K
  | some x, some y => some (x + y)
  | _, _ => none

section
variable {F D T S K : Type} [_root_.Field K] [LinearOrder K] [FloorRing K]

/-- The column of one map in `map_f.sample(positions + offset, properties=idxs)` (981, `gridder.py:988-1053`).  The
code puts the maps of all detectors into the grid of the last one (889-894); all have the same axes. -/
def sampleMap (m : Grid K K) (ps : List (Point K)) : Except Sim.Err (List (Option K)) :=
  match m.sample ⟨!ps.isEmpty && ps.all (·.isInt), false, ps.map (fun p => [p.x, p.y])⟩ (some [0]) with
  | .error e => .error e
  | .ok rows => .ok (rows.map (fun r => r.headD none))

/-- The convolution of one property with the beam (880). -/
def convolveMap (g : Grid K K) (cube : Arr K) (beam : Grid K K) (pad : PadArg) : Except Sim.Err (Grid K K) :=
  ({ g with grid := some cube }).convolveNew beam (some [0, 1]) pad

/-- The average over the channels (884-885). -/
def averageMap (c : Grid K K) (spectral : List K → Except Sim.Err (Arr K)) : Except Sim.Err (Grid K K) :=
  match spectral (c.centers.getD 2 []) with
  | .error e => .error e
  | .ok w => c.collapseNew [2] (some [w]) (some .average)

/-- The operations of the instrument on grids (786-813, 880, 884-885, 972, 981-983). -/
def grids (lib : Lib F D T S K) :
    Phys F D (Point K) (Grid K K) (Arr K) (Grid K K) (Grid K K) (Grid K K) (Point K) (Option K) T S
      (BeamNorm × PadArg) K where
  emptyKw := lib.emptyKw
  noOffset := ⟨true, 0, 0⟩
  beam g fn kw q size best := lift (Map.setupBeam g best (lib.spatial fn kw) q.1 (kernelArg size))
  conv g cube beam q := lift (convolveMap g cube beam q.2)
  collapse _ c fn kw := lift (averageMap c (lib.spectral fn kw))
  sample _ m ps := lift (sampleMap m ps)
  shift := shiftPoint
  noise fn kw n dt seed :=
    match lib.noise fn kw n dt seed with
    | .error e => .error e
    | .ok xs => .ok (xs.map some)
  zero := some 0
  add := addNaN

/-- A grid with one property as the instrument holds it (694-699). -/
def asField (g : Grid K K) (a : Arr K) : Field (Grid K K) (Arr K) K where
  axes := g
  ndim := g.dim
  props := [a]
  axunits := g.axunits
  gridunits := g.gridunits
  pixel := g.pix.vals
  active := g.grid.isSome
  fourier := g.fourier.any id

end

end Verif.Inst
