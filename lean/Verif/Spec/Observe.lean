import Verif.Spec.Instrument
import Verif.Spec.DetectorMap
import Verif.Model.Observe

/-!
# Vocabulary for statements about what an instrument records of a sky
-/

namespace Verif.Inst.Spec

open Verif.Map (Grid Arr)
open Verif.Map.Spec (Responds Weights weightedMean smeared freq)

variable {F D T S K : Type} [_root_.Field K]

/-- The responses of a detector have the values `R` and `W`. -/
structure Detects (lib : Lib F D T S K) (det : Det F D (Point K)) (R : K → K → K → K) (W : K → K) : Prop where
  spatial : ∃ r, det.spatial = some r ∧ Responds (lib.spatial r.fn r.kw) R
  spectral : ∃ r, det.spectral = some r ∧ Weights (lib.spectral r.fn r.kw) W

/-- `x` is in cell `i` of `n` cells of width `w` around `c`. -/
def InSpan [LinearOrder K] (n : ℕ) (w c x : K) (i : ℕ) : Prop :=
  i < n ∧ c - n * w / 2 + i * w ≤ x ∧ x < c - n * w / 2 + (i + 1) * w

/-- What a detector with beam `R`, normalised by `N`, and spectral response `W` sees in cell `(i, j)` of the sky: the
mean over the channels, weighted by the spectral response, of the sky smeared by the beam. -/
def seen (a : Arr K) (R : K → K → K → K) (W : K → K) (N : ℕ → K) (nx ny nz m n : ℕ) (wx wy wz cz : K) (i j : ℕ) : K :=
  weightedMean nz (fun k => W (freq nz wz cz k))
    (fun k => smeared a R nx ny m n wx wy (freq nz wz cz k) (N k) k i j)

/-- A sample at `(x, y)` with noise `e`: the noise plus the value `val i j` of the cell there; NaN off the map. -/
def Reads [LinearOrder K] (nx ny : ℕ) (wx wy cx cy : K) (val : ℕ → ℕ → K) (x y e : K) (v : Option K) : Prop :=
  (∀ i j, InSpan nx wx cx x i → InSpan ny wy cy y j → v = some (e + val i j)) ∧
    ((∀ i j, ¬ (InSpan nx wx cx x i ∧ InSpan ny wy cy y j)) → v = none)

/-- What is needed to observe field `f`, the grid `g` with values `a`: the instrument has detectors, all with
responses (`R d` and `W d`) and noise (`E d`, a number for each position); the size of the kernel, the normalisation
and the padding make sense, and nothing that is divided by vanishes. -/
structure Observing [LinearOrder K] [FloorRing K] (lib : Lib F D T S K)
    (s : State F D (Point K) (Grid K K) (Arr K) (Grid K K) K) (f : Name) (g : Grid K K) (a : Arr K)
    (nx ny nz m n : ℕ) (wx wy wz cx cy cz : K) (norm : Map.BeamNorm) (pad : Map.PadArg)
    (R : Name → K → K → K → K) (W : Name → K → K) (E : Name → List K) (sa : SampleArgs (Point K) T S) : Prop where
  sky : Map.Spec.Sky g a nx ny nz wx wy wz cx cy cz
  field : s.fields.get? f = some (asField g a)
  nonempty : s.detNames ≠ []
  detects : ∀ d ∈ s.detNames, ∀ det, s.detectors.get? d = some det → Detects lib det (R d) (W d)
  kernelX : 2 ≤ m
  kernelY : 2 ≤ n
  known : norm ≠ .other
  beam : ∀ d ∈ s.detNames, ∀ k < nz, ∀ N,
    Map.Spec.Normalises norm (Map.Spec.beamValues (R d) m n wx wy (freq nz wz cz k)) N → N ≠ 0
  padding : pad = .none ∨ ∃ p : ℕ, pad = .int p
  weights : ∀ d ∈ s.detNames, ((List.range nz).map (fun k => W d (freq nz wz cz k))).sum ≠ 0
  shape : sa.shapeOk = true
  signal : sa.signal = true
  time : sa.withNoise = true → sa.dt ≠ none
  noise : ∀ d ∈ s.detNames, Noise (grids lib) s f sa d ((E d).map some) ∧ (E d).length = sa.positions.length

/-- What detector `d` records: at each position, shifted by its pointing offset, its noise plus what it sees there. -/
def Observed [LinearOrder K] (s : State F D (Point K) (Grid K K) (Arr K) (Grid K K) K) (a : Arr K)
    (nx ny nz m n : ℕ) (wx wy wz cx cy cz : K) (norm : Map.BeamNorm)
    (R : Name → K → K → K → K) (W : Name → K → K) (E : Name → List K) (ps : List (Point K)) (d : Name)
    (col : List (Option K)) : Prop :=
  ∃ det N, s.detectors.get? d = some det ∧
    (∀ k < nz, Map.Spec.Normalises norm (Map.Spec.beamValues (R d) m n wx wy (freq nz wz cz k)) (N k)) ∧
    col.length = ps.length ∧
    ∀ (t : ℕ) (p : Point K) (e : K) (v : Option K), ps[t]? = some p → (E d)[t]? = some e → col[t]? = some v →
      Reads nx ny wx wy cx cy (seen a (R d) (W d) N nx ny nz m n wx wy wz cz)
        (p.x + det.pointing.x) (p.y + det.pointing.y) e v

end Verif.Inst.Spec
