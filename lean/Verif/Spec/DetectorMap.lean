import Verif.Spec.GridConvChan
import Verif.Spec.GridReduce
import Verif.Model.DetectorMap

/-!
# Vocabulary for statements about the map of a detector
-/

namespace Verif.Map.Spec

variable {K : Type} [Field K]

/-- The response function gives one value for each pair of offsets and each frequency, that of `R`. -/
def Responds (spatial : List K → List K → List K → Except Sim.Err (Arr K)) (R : K → K → K → K) : Prop :=
  ∀ xs ys fs, ∃ r, spatial xs ys fs = .ok r ∧ r.shape = [xs.length, ys.length, fs.length] ∧
    ∀ i j k x y f, xs[i]? = some x → ys[j]? = some y → fs[k]? = some f → r.get [i, j, k] = R x y f

/-- The spectral response gives one value for each frequency, that of `S`. -/
def Weights (spectral : List K → Except Sim.Err (Arr K)) (S : K → K) : Prop :=
  ∀ fs, ∃ w, spectral fs = .ok w ∧ w.shape = [fs.length] ∧ ∀ k f, fs[k]? = some f → w.get [k] = S f

/-- A field: a map in real space of one property, with `nx` by `ny` cells of sizes `wx`, `wy` on the sky and `nz`
channels of width `wz` around `cz`. -/
structure Sky [LinearOrder K] (g : Grid K K) (a : Arr K) (nx ny nz : ℕ) (wx wy wz cx cy cz : K) : Prop where
  regular : Regular g
  floats : Floats g
  labelled : Labelled g
  dim : g.dim = 3
  nProps : g.nProps = 1
  units : g.gridunits.length = 1
  real : ∀ f ∈ g.fourier, f = false
  map : g.isPow = false
  active : g.grid = some a
  x : AxisIs g 0 nx wx cx
  y : AxisIs g 1 ny wy cy
  z : AxisIs g 2 nz wz cz

/-- The frequency of channel `k`. -/
def freq (nz : ℕ) (wz cz : K) (k : ℕ) : K := cz - nz * wz / 2 + (k + 1 / 2) * wz

/-- From cell `j` a kernel of `m` cells reaches cell `i`. -/
def Reaches (m i j : ℕ) : Prop := j ≤ i + (m - 1) / 2 ∧ i + (m - 1) / 2 - j < m

instance (m i j : ℕ) : Decidable (Reaches m i j) := inferInstanceAs (Decidable (_ ∧ _))

/-- Where the beam around cell `j` is evaluated for cell `i`, in cells: for a kernel with an odd number of cells their
distance, for an even number half a cell less. -/
def away (m i j : ℕ) : K := (i : K) - j - (if m % 2 = 0 then 1 / 2 else 0)

/-- The positions at which a kernel of `m` cells of width `w` is evaluated: symmetric around zero. -/
def positions (m : ℕ) (w : K) : List K := (List.range m).map (fun (i : ℕ) => ((i : K) + 1 / 2 - m / 2) * w)

/-- The values of the beam at frequency `f` over the kernel. -/
def beamValues (R : K → K → K → K) (m n : ℕ) (wx wy f : K) : List K :=
  (positions m wx).flatMap (fun x => (positions n wy).map (fun y => R x y f))

/-- What the beam is divided by: its greatest value, its sum, or one. -/
def Normalises [LinearOrder K] (norm : BeamNorm) (vs : List K) (N : K) : Prop :=
  match norm with
  | .peak => N ∈ vs ∧ ∀ v ∈ vs, v ≤ N
  | .area => N = vs.sum
  | _ => N = 1

/-- Channel `k` of a field, smeared by the beam and seen in cell `(i, j)`. -/
def smeared (a : Arr K) (R : K → K → K → K) (nx ny m n : ℕ) (wx wy f N : K) (k i j : ℕ) : K :=
  ((List.range nx).map (fun i' => ((List.range ny).map (fun j' =>
    if Reaches m i i' ∧ Reaches n j j' then
      cell a [i', j', k] 0 * (R (away m i i' * wx) (away n j j' * wy) f / N)
    else 0)).sum)).sum

/-- The mean over `n` channels with weights `s`. -/
def weightedMean (n : ℕ) (s v : ℕ → K) : K :=
  ((List.range n).map (fun k => s k * v k)).sum / ((List.range n).map s).sum

/-- `h` is the map of the field that a detector with beam `R` and spectral response `S` makes: the axes of the field
on the sky, and in each cell the mean over the channels, weighted by the spectral response, of the smeared field. -/
structure MapOf [LinearOrder K] (g h : Grid K K) (a : Arr K) (R : K → K → K → K) (S : K → K) (N : ℕ → K)
    (nx ny nz m n : ℕ) (wx wy wz cz : K) : Prop where
  axes : Without g h 2
  units : h.gridunits = g.gridunits
  values : ∃ b, h.grid = some b ∧ b.shape = [nx, ny, 1] ∧ ∀ i j, i < nx → j < ny →
    cell b [i, j] 0 = weightedMean nz (fun k => S (freq nz wz cz k))
      (fun k => smeared a R nx ny m n wx wy (freq nz wz cz k) (N k) k i j)

end Verif.Map.Spec
