import Verif.Spec.Observe
import Verif.Spec.LCMap

/-!
# Vocabulary for statements about what an instrument records of a lightcone
-/

namespace Verif.Inst.Spec

open Verif.Map (Grid Arr)
open Verif.Map.Spec (freq Reaches away)

variable {F D T S K : Type}

/-- An object: where it is on the sky, its redshift or frequency, and its value. -/
structure Source (K : Type) where
  x : K
  y : K
  z : K
  v : K

/-- Object `k` of a lightcone as source: its angles, its redshift or the frequency `f / (1 + z)` of a line, and its
value as shown by the handler. -/
def SourceOf [_root_.Field K] (rows : List (LC.Row K)) (line : Option K) (shown : List (Handler.V K)) (k : ℕ)
    (o : Source K) : Prop :=
  ∃ r, rows[k]? = some r ∧ o.x = r.ra ∧ o.y = r.dec ∧
    o.z = line.elim r.redshift (fun f => f / (1 + r.redshift)) ∧ shown[k]? = some (some o.v)

/-- An object with its redshift, or the frequency `f / (1 + z)` at which a line is observed, as third coordinate. -/
def atLine [_root_.Field K] (line : Option K) (o : Source K) : Source K :=
  ⟨o.x, o.y, line.elim o.z (fun f => f / (1 + o.z)), o.v⟩

/-- A grid without NaN as a grid of numbers. -/
def plainGrid [Zero K] (g : Grid K (WithTop K)) : Grid K K where
  nProps := g.nProps
  nObj := g.nObj
  center := g.center
  side := g.side
  pix := g.pix
  nPix := g.nPix
  axunits := g.axunits
  faxunits := g.faxunits
  gridunits := g.gridunits
  axes := g.axes
  centers := g.centers
  faxes := g.faxes
  fcenters := g.fcenters
  fourier := g.fourier
  isPow := g.isPow
  grid := g.grid.map (fun a => ⟨a.shape, fun i => (a.get i).untopD 0⟩)

/-- No cell has NaN. -/
def NoNaN (g : Grid K (WithTop K)) (n : ℕ) : Prop :=
  ∀ a, g.grid = some a → ∀ c p, p < n → Map.Spec.cell a c p ≠ ⊤

variable [_root_.Field K] [LinearOrder K]

instance (n : ℕ) (w c x : K) (i : ℕ) : Decidable (InSpan n w c x i) := inferInstanceAs (Decidable (_ ∧ _ ∧ _))

/-- The cell of `x` among `n` cells of width `w` around `c`. -/
def spot (n : ℕ) (w c x : K) : Option ℕ := (List.range n).find? (fun i => InSpan n w c x i)

/-- What an object adds in cell `(i, j)` to the sum over the channels: its value, times the beam between the cells,
times the spectral response in its channel; nothing if it is not on the map or the kernel does not reach. -/
def share (R : K → K → K → K) (W : K → K) (N : ℕ → K) (nx ny nz m n : ℕ) (wx wy wz cx cy cz : K) (i j : ℕ)
    (o : Source K) : K :=
  match spot nx wx cx o.x, spot ny wy cy o.y, spot nz wz cz o.z with
  | some i', some j', some k =>
    if Reaches m i i' ∧ Reaches n j j' then
      W (freq nz wz cz k) * (o.v * (R (away m i i' * wx) (away n j j' * wy) (freq nz wz cz k) / N k))
    else 0
  | _, _, _ => 0

/-- What is received in cell `(i, j)` of all objects. -/
def received (objs : List (Source K)) (q : K) (R : K → K → K → K) (W : K → K) (N : ℕ → K) (nx ny nz m n : ℕ)
    (wx wy wz cx cy cz : K) (i j : ℕ) : K :=
  q * (objs.map (share R W N nx ny nz m n wx wy wz cx cy cz i j)).sum /
    ((List.range nz).map (fun k => W (freq nz wz cz k))).sum

/-- What is needed to observe a field with these cells: as in `Observing`, without the field. -/
structure Equipped [FloorRing K] (lib : Lib F D T S K)
    (s : State F D (Point K) (Grid K K) (Arr K) (Grid K K) K) (f : Name)
    (nz m n : ℕ) (wx wy wz cz : K) (norm : Map.BeamNorm) (pad : Map.PadArg)
    (R : Name → K → K → K → K) (W : Name → K → K) (E : Name → List K) (sa : SampleArgs (Point K) T S) : Prop where
  nonempty : s.detNames ≠ []
  detects : ∀ d ∈ s.detNames, ∀ det, s.detectors.get? d = some det → Detects lib det (R d) (W d)
  kernelX : 2 ≤ m
  kernelY : 2 ≤ n
  known : norm ≠ .other
  beam : ∀ d ∈ s.detNames, ∀ k < nz, ∀ N,
    Map.Spec.Normalises norm (Map.Spec.beamValues (R d) m n wx wy (freq nz wz cz k)) N → N ≠ 0
  padding : pad = .none ∨ ∃ p : ℕ, pad = .int p
  weights : ∀ d ∈ s.detNames, ((List.range nz).map (fun k => W d (freq nz wz cz k))).sum ≠ 0
  shape : sa.shapeOk = true
  signal : sa.signal = true
  time : sa.withNoise = true → sa.dt ≠ none
  noise : ∀ d ∈ s.detNames, Noise (grids lib) s f sa d ((E d).map some) ∧ (E d).length = sa.positions.length

/-- What detector `d` records of objects: at each position, shifted by its pointing offset, its noise plus what it
receives there. -/
def RecordedOf (s : State F D (Point K) (Grid K K) (Arr K) (Grid K K) K) (objs : List (Source K)) (q : K)
    (nx ny nz m n : ℕ) (wx wy wz cx cy cz : K) (norm : Map.BeamNorm)
    (R : Name → K → K → K → K) (W : Name → K → K) (E : Name → List K) (ps : List (Point K)) (d : Name)
    (col : List (Option K)) : Prop :=
  ∃ det N, s.detectors.get? d = some det ∧
    (∀ k < nz, Map.Spec.Normalises norm (Map.Spec.beamValues (R d) m n wx wy (freq nz wz cz k)) (N k)) ∧
    col.length = ps.length ∧
    ∀ (t : ℕ) (p : Point K) (e : K) (v : Option K), ps[t]? = some p → (E d)[t]? = some e → col[t]? = some v →
      Reads nx ny wx wy cx cy (received objs q (R d) (W d) N nx ny nz m n wx wy wz cx cy cz)
        (p.x + det.pointing.x) (p.y + det.pointing.y) e v

end Verif.Inst.Spec
