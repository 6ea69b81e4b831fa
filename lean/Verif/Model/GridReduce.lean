import Verif.Model.GridFT
import Mathlib.Algebra.Module.Basic

/-!
# Model of `Grid` (`simim/map/gridder.py`): `down_sample` (lines 1152-1219) and
`collapse_dimension` (lines 1222-1350)

Division by zero, which gives `nan` or `inf` in numpy, is not represented: the theorems about
averages assume weights with a non-zero sum.
-/

namespace Verif.Map

open Verif.Sim (Err)

variable {K V : Type}

/-! ## Broadcasting -/

/-- A shape written with `n` axes: axes of length one are added on the left. -/
def lpad (n : ℕ) (s : List ℕ) : List ℕ := List.replicate (n - s.length) 1 ++ s

/-- An operation between two arrays with numpy's broadcasting. -/
def broadcast {α β γ : Type} (f : α → β → γ) (a : Arr α) (b : Arr β) : Except Err (Arr γ) :=
  let n := max a.shape.length b.shape.length
  match bshape (lpad n a.shape) (lpad n b.shape) with
  | none => .error .valueError
  | some s => .ok ⟨s, fun i =>
      f (a.get ((bindex (lpad n a.shape) i).drop (n - a.shape.length)))
        (b.get ((bindex (lpad n b.shape) i).drop (n - b.shape.length)))⟩

/-- `np.sum(a, axis=ax)`. -/
def Arr.sumAxis [AddCommMonoid V] (a : Arr V) (ax : ℕ) : Except Err (Arr V) :=
  if ax < a.shape.length then
    .ok ⟨a.shape.eraseIdx ax,
      fun i => ((List.range (a.shape.getD ax 0)).map (fun j : ℕ => a.get (i.insertIdx ax j))).sum⟩
  else .error .valueError

/-! ## `collapse_dimension` -/

/-- The argument `mode`. -/
inductive Mode
  | sum
  | average
  deriving DecidableEq

section
variable [Field K]

/-- The weights of axis `ax`, which has `n` cells, in the form in which they are multiplied with the
data, lines 1276-1292; `shape` is the shape of the data, `d` the number of axes. -/
def reshapeWeight (shape : List ℕ) (d n ax : ℕ) (w : Arr K) : Except Err (Arr K) :=
  if w.shape.length = 1 then
    (if w.shape = [n] then
      .ok ⟨(List.replicate (d + 1) 1).set ax n, fun i => w.get [i.getD ax 0]⟩
     else .error .valueError)
  else if w.shape.length = d then
    (if w.shape = shape.dropLast then .ok ⟨w.shape ++ [1], fun i => w.get i.dropLast⟩
     else .error .valueError)
  else if w.shape.length = d + 1 then
    (if w.shape = shape then .ok ⟨w.shape ++ [1], fun i => w.get i.dropLast⟩
     else .error .valueError)
  else .error .valueError

/-- The normalisation for one axis, lines 1294-1302 (the weights never have one axis there). -/
def collapseNorm (mode : Mode) (w : Arr K) (ax : ℕ) : Except Err (Arr K) :=
  match mode with
  | .sum => .ok ⟨[], fun _ => 1⟩
  | .average => w.sumAxis ax

variable [AddCommGroup V] [Module K V]

/-- `np.sum(grid*weights[i], axis=ax[i]) / norm[i]`, line 1308. -/
def collapseStep (a : Arr V) (ax : ℕ) (w norm : Arr K) : Except Err (Arr V) :=
  match broadcast (fun (x : V) (c : K) => c • x) a w with
  | .error e => .error e
  | .ok b =>
    match b.sumAxis ax with
    | .error e => .error e
    | .ok c => broadcast (fun (x : V) (n : K) => n⁻¹ • x) c norm

/-- The loop over the axes, lines 1307-1308: the data after the last successful step. -/
def collapseLoop (a : Arr V) : List (ℕ × Arr K × Arr K) → Arr V × Except Err Unit
  | [] => (a, .ok ())
  | (ax, w, n) :: l =>
    match collapseStep a ax w n with
    | .error e => (a, .error e)
    | .ok b => collapseLoop b l

/-- The entries of the axes that are kept. -/
def keepAxes {α : Type} (ax : List ℕ) (l : List α) : List α :=
  (l.zipIdx.filter (fun p => decide (p.2 ∉ ax))).map (·.1)

/-- The description without the axes, lines 1311-1324 (if no axis is named twice; the number
of dimensions is the length of `center`). -/
def Grid.dropAxes (g : Grid K V) (ax : List ℕ) : Grid K V :=
  { g with
    nPix := keepAxes ax g.nPix, axes := keepAxes ax g.axes, centers := keepAxes ax g.centers,
    faxes := keepAxes ax g.faxes, fcenters := keepAxes ax g.fcenters,
    axunits := keepAxes ax g.axunits, faxunits := keepAxes ax g.faxunits,
    fourier := keepAxes ax g.fourier,
    center := { g.center with vals := keepAxes ax g.center.vals },
    side := { g.side with vals := keepAxes ax g.side.vals },
    pix := { g.pix with vals := keepAxes ax g.pix.vals } }

/-- One weight array for each axis, lines 1268-1274 (for one axis, `weights` is the list with the array
given). -/
def givenWeights (g : Grid K V) (ax : List ℕ) (weights : Option (List (Arr K))) : List (Arr K) :=
  weights.getD (ax.map (fun i => ⟨[(g.centers.getD i []).length], fun _ => 1⟩))

/-- The axes with their weights and normalisations, lines 1254-1302. -/
def collapsePlan (g : Grid K V) (a : Arr V) (ax : List ℕ) (weights : Option (List (Arr K)))
    (mode : Option Mode) : Except Err (List (ℕ × Arr K × Arr K)) :=
  if ∃ i ∈ ax, g.dim ≤ i then .error .valueError
  else if (givenWeights g ax weights).length ≠ ax.length then .error .valueError
  else
    match mapE (fun p : ℕ × Arr K => reshapeWeight a.shape g.dim (g.centers.getD p.1 []).length p.1 p.2)
        (ax.zip (givenWeights g ax weights)) with
    | .error e => .error e
    | .ok ws =>
      match mode with
      | none => .error .valueError
      | some m =>
        match mapE (fun p : ℕ × Arr K => collapseNorm m p.2 p.1) (ax.zip ws) with
        | .error e => .error e
        | .ok ns => .ok (ax.zip (ws.zip ns))

/-- `collapse_dimension(ax, in_place=True, ...)`, lines 1222-1326. -/
def Grid.collapse (g : Grid K V) (ax : List ℕ) (weights : Option (List (Arr K)))
    (mode : Option Mode) : Grid K V × Except Err Unit :=
  match g.grid with
  | none => (g, .error .valueError)
  | some a =>
    match collapsePlan g a ax weights mode with
    | .error e => (g, .error e)
    | .ok plan =>
      match collapseLoop a plan with
      | (b, .error e) => ({ g with grid := some b }, .error e)
      | (b, .ok ()) => ({ g.dropAxes ax with grid := some b }, .ok ())

end

section
variable [Field K] [LinearOrder K] [FloorRing K] [AddCommGroup V] [Module K V]

/-- The fields that `collapse_dimension(..., in_place=False)` copies from the map into its copy,
lines 1335-1348. -/
def takeAxes (n s : Grid K V) : Grid K V :=
  { n with
    nPix := s.nPix, axes := s.axes, centers := s.centers, faxes := s.faxes, fcenters := s.fcenters,
    axunits := s.axunits, faxunits := s.faxunits, fourier := s.fourier, center := s.center,
    side := s.side, pix := s.pix }

/-- `collapse_dimension(ax, in_place=False, ...)`, lines 1222-1302, 1328-1350. -/
def Grid.collapseNew (g : Grid K V) (ax : List ℕ) (weights : Option (List (Arr K)))
    (mode : Option Mode) : Except Err (Grid K V) :=
  match g.grid with
  | none => .error .valueError
  | some a =>
    match collapsePlan g a ax weights mode with
    | .error e => .error e
    | .ok plan =>
      match g.copy none with
      | .error e => .error e
      | .ok n =>
        match collapseLoop (n.grid.getD a) plan with
        | (_, .error e) => .error e
        | (b, .ok ()) => .ok { takeAxes n (g.dropAxes ax) with grid := some b }

/-! ## `down_sample` -/

/-- One axis of `down_sample`, lines 1190-1219, without the data: `f` cells become one.  The
new list of centres keeps the old length (line 1195), the rest are zeros. -/
def downAxis (g : Grid K V) (ax f : ℕ) : Except Err (Grid K V) :=
  let old := g.centers.getD ax []
  let m := g.nPix.getD ax 0 / f
  let w := g.pix.vals.getD ax 0
  let cs : List K := (List.range old.length).map (fun i : ℕ =>
    if i < m then ((old.drop (i * f)).take f).sum / (((old.drop (i * f)).take f).length : ℕ) else 0)
  let edges := cs.map (fun c => c - f * w / 2) ++ [cs.getLastD 0 + f * w / 2]
  let pix := g.pix.put ax (w * f)
  match edges.min?, edges.max? with
  | some lo, some hi =>
    let side := g.side.put ax (hi - lo)
    let fc := fcentersOf m (pix.vals.getD ax 0)
    match axisEdges fc with
    | .error e => .error e
    | .ok fe =>
      .ok { g with
        centers := g.centers.set ax cs, axes := g.axes.set ax edges, pix := pix,
        nPix := g.nPix.set ax m, side := side,
        center := g.center.put ax (lo + side.vals.getD ax 0 / 2),
        fcenters := g.fcenters.set ax fc, faxes := g.faxes.set ax fe }
  | _, _ => .error .valueError

/-- The loop of `down_sample`, lines 1190-1219.  The factor of axis `i` is looked up as `factor[i]`
(line 1192); a single factor was turned into a floating point number (line 1178), so that the
slices of line 1199 are refused; with data the list of slices of line 1204 is refused (numpy 1.23
or later).  Both happen for the first new cell, before anything is changed.  For a factor of
zero or larger than the number of cells only that the call fails (line 1219) is represented, not what
it changes before. -/
def downLoop (g : Grid K V) (factor : List ℕ) (isFloat : Bool) :
    List ℕ → Grid K V × Except Err Unit
  | [] => (g, .ok ())
  | ax :: l =>
    match factor[ax]? with
    | none => (g, .error .indexError)
    | some f =>
      if g.nPix.getD ax 0 / f = 0 then (g, .error .indexError)
      else if g.grid.isSome then (g, .error .indexError)
      else if isFloat then (g, .error .typeError)
      else
        match downAxis g ax f with
        | .error e => (g, .error e)
        | .ok g' => downLoop g' factor isFloat l

/-- `down_sample`, lines 1152-1219 (`modeOk`: the mode is `'average'` or `'sum'`). -/
def Grid.downSample (g : Grid K V) (ax factor : List ℕ) (modeOk : Bool) :
    Grid K V × Except Err Unit :=
  if ∃ i ∈ ax, g.dim ≤ i then (g, .error .valueError)
  else if factor.length ≠ 1 ∧ factor.length ≠ ax.length then (g, .error .valueError)
  else if ∃ i ∈ ax, g.fourier.getD i false = true then (g, .error .valueError)
  else if !modeOk then (g, .error .valueError)
  else if factor.length = 1 then
    downLoop g (List.replicate ax.length (factor.getD 0 0)) true ax
  else downLoop g factor false ax

end

end Verif.Map
