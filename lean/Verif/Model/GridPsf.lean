import Mathlib.Analysis.SpecialFunctions.Pow.Real
import Mathlib.Analysis.SpecialFunctions.Sqrt
import Verif.Model.Grid

/-!
# Point spread functions: `PSF` and `SpectralPSF`, `simim/map/gridder.py:2150-2314`

Numbers are real numbers; widths are not zero, and frequencies are positive.
-/

namespace Verif.Map

open Verif.Sim (Err)

/-- All indices of an array, for `np.sum`. -/
def psfIndices : List ℕ → List (List ℕ)
  | [] => [[]]
  | n :: shape => (List.range n).flatMap (fun i => (psfIndices shape).map (fun c => i :: c))

/-- Lines 2191-2195 and 2199-2203 (2275-2279, 2284-2288): one length for all axes, or one for each. -/
def psfSpread {K : Type} (a : NArr K) (d : ℕ) : Except Err (NArr K) :=
  match a.vals with
  | [x] => .ok ⟨false, List.replicate d x⟩
  | l => if l.length = d then .ok a else .error .valueError

noncomputable section

/-- `sig`, lines 2208, 2295. -/
def sigma (fwhm : ℝ) : ℝ := fwhm / (2 * Real.sqrt (2 * Real.log 2))

/-- One factor, line 2211. -/
def gaussian (sig x : ℝ) : ℝ := Real.exp (-(x ^ 2) / (2 * sig ^ 2))

/-- `psfnd`, lines 2209-2216: the product of the factors of the axes. -/
def psfArr (nPix : List ℕ) (centers : List (List ℝ)) (fwhm : List ℝ) : Arr ℝ :=
  ⟨nPix ++ [1], fun i => (List.zipWith (fun (q : List ℝ × ℝ) j => gaussian (sigma q.2) (q.1.getD j 0))
    (centers.zip fwhm) i).prod⟩

/-- The side lengths, lines 2190-2197. -/
def psfSides (fwhm : NArr ℝ) (side : Option (NArr ℝ)) : Except Err (NArr ℝ) :=
  match side with
  | some s => psfSpread s fwhm.vals.length
  | none => .ok ⟨fwhm.isInt, fwhm.vals.map (fun f => 6 * f)⟩

/-- `PSF.__init__`, lines 2150-2222. -/
def psf (fwhm pix : NArr ℝ) (side : Option (NArr ℝ) := none)
    (axunits : Option (List (Option String)) := none) (norm : String := "area") : Except Err (Grid ℝ ℝ) :=
  if norm ≠ "area" ∧ norm ≠ "peak" then .error .valueError                     -- lines 2182-2183
  else
    let d := fwhm.vals.length
    match psfSides fwhm side with                                              -- lines 2190-2197
    | .error e => .error e
    | .ok side =>
      match psfSpread pix d with                                               -- lines 2199-2203
      | .error e => .error e
      | .ok pix =>
        match (Grid.new 1 ⟨false, List.replicate d 0⟩ side pix axunits none :     -- line 2205
            Except Err (Grid ℝ ℝ)) with
        | .error e => .error e
        | .ok g =>
          let a := psfArr g.nPix g.centers fwhm.vals
          let sum := ((psfIndices a.shape).map a.get).sum
          .ok { g with
            nObj := 0
            grid := some (if norm = "area" then ⟨a.shape, fun i => a.get i / sum⟩ else a) }

/-- `psfnd` of `SpectralPSF`, lines 2296-2305, for `d` spatial axes. -/
def specArr (nPix : List ℕ) (centers : List (List ℝ)) (fwhm spec : List ℝ) (spec0 e : ℝ) : Arr ℝ :=
  ⟨nPix ++ [1], fun i => (List.zipWith (fun (q : List ℝ × ℝ) j =>
      gaussian (sigma q.2 * (spec0 / spec.getD (i.getD fwhm.length 0) 0) ^ e) (q.1.getD j 0))
    (centers.zip fwhm) i).prod⟩

/-- `np.sum(self.grid, axis=axes)` over the spatial axes, line 2309, for channel `k`. -/
def sliceSum (a : Arr ℝ) (d k : ℕ) : ℝ :=
  ((psfIndices (a.shape.take d)).map (fun c => a.get (c ++ [k, 0]))).sum

/-- The side lengths of the spatial axes, lines 2274-2281. -/
def specSides (fwhm : NArr ℝ) (spec : List ℝ) (spec0 : ℝ) (side : Option (NArr ℝ)) : Except Err (NArr ℝ) :=
  match side with
  | some s => psfSpread s fwhm.vals.length
  | none =>
    .ok ⟨false, fwhm.vals.map (fun f => 3 * f * ((spec.map (fun s => spec0 / s)).max?.getD 0))⟩

/-- `SpectralPSF.__init__`, lines 2225-2314.  The array of line 2296 has as many channels as the grid, those
of line 2303 as many as `spec_axis`: if these numbers differ, the product fails (line 2303). -/
def spectralPsf (spec : NArr ℝ) (spec0 : ℝ) (fwhm pix : NArr ℝ) (side : Option (NArr ℝ) := none)
    (axunits : Option (List (Option String)) := none) (norm : String := "area") (e : ℝ := 1) :
    Except Err (Grid ℝ ℝ) :=
  if norm ≠ "area" ∧ norm ≠ "peak" then .error .valueError                     -- lines 2264-2265
  else
    let d := fwhm.vals.length
    match spec.vals.max?, spec.vals.min? with
    | some mx, some mn =>
      match specSides fwhm spec.vals spec0 side with                           -- lines 2274-2281
      | .error e => .error e
      | .ok side =>
        match spec.vals with
        | s0 :: s1 :: _ =>
          match psfSpread pix d with                                           -- lines 2284-2288
          | .error e => .error e
          | .ok pix =>
            match (Grid.new 1 ⟨false, List.replicate d 0 ++ [(mx - mn) / 2 + mn]⟩    -- lines 2271-2272
                ⟨side.isInt && spec.isInt, side.vals ++ [mx - mn + |s1 - s0|]⟩       -- line 2282
                ⟨pix.isInt && spec.isInt, pix.vals ++ [|s1 - s0|]⟩ axunits none :    -- lines 2289-2291
                Except Err (Grid ℝ ℝ)) with
            | .error e => .error e
            | .ok g =>
              if g.nPix[d]? ≠ some spec.vals.length then .error .valueError    -- line 2303
              else
                let a := specArr g.nPix g.centers fwhm.vals spec.vals spec0 e
                .ok { g with
                  axes := g.axes.set d spec.vals                               -- line 2292
                  nObj := 0
                  grid := some (if norm = "area"                               -- lines 2307-2311
                    then ⟨a.shape, fun i => a.get i / sliceSum a d (i.getD d 0)⟩ else a) }
        | _ => .error .indexError
    | _, _ => .error .valueError                                               -- np.ptp of nothing

end

end Verif.Map
