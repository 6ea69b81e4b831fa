import Verif.Model.Grid
import Mathlib.Algebra.Group.Hom.Defs

/-!
# Model of the pictures of grids: `Grid.visualize` (`simim/map/gridder.py:1790-1850`) and `Grid.animate`
(`1853-1965`)

A picture is the call of `pcolor`/`pcolormesh`: two lists of coordinates and an image with one row for each ordinate.
Colours, sizes and the logarithmic scale (which replaces each value by its logarithm) are not modelled.
Axes are given as non-negative numbers.  `re` is the real part, an additive function of the values.
-/

namespace Verif.Pic

open Verif.Map (Grid Arr axisEdges)

/-- The exceptions. -/
inductive Err where
  | value | index | type | unbound
  deriving DecidableEq, Repr

variable {K V W : Type}

/-- What is taken along an axis of an array: every entry (the axis remains), the sum over the `n` entries, or one
entry. -/
inductive Sel where
  | keep
  | all (n : ℕ)
  | one (k : ℕ)
  deriving DecidableEq

/-- Sums and slices of an array with the values `f`: the value at the index `i` of the axes that remain. -/
def look [AddCommMonoid V] : List Sel → List ℕ → (List ℕ → V) → V
  | [], _, f => f []
  | .all n :: l, i, f => ((List.range n).map (fun k => look l i (fun r => f (k :: r)))).sum
  | .one k :: l, i, f => look l i (fun r => f (k :: r))
  | .keep :: l, k :: i, f => look l i (fun r => f (k :: r))
  | .keep :: _, [], _ => 0

/-- What `pcolor(xs, ys, image)` draws: the value in column `i` and row `j`; `centred` if the coordinates are those of
the centres of the cells instead of their edges. -/
structure Mesh (K W : Type) where
  xs : List K
  ys : List K
  centred : Bool
  val : ℕ → ℕ → W

/-- `pcolor`/`pcolormesh` of matplotlib with `shading='auto'`: the image has one row for each cell along the ordinate. -/
def pcolor (xs ys : List K) (img : Arr W) : Except Err (Mesh K W) :=
  match img.shape with
  | [ny, nx] =>
    if xs.length = nx + 1 ∧ ys.length = ny + 1 then .ok ⟨xs, ys, false, fun i j => img.get [j, i]⟩
    else if xs.length = nx ∧ ys.length = ny then .ok ⟨xs, ys, true, fun i j => img.get [j, i]⟩
    else .error .type
  | _ => .error .type

/-- `.T` of an image. -/
def transpose (img : Arr W) : Arr W := ⟨img.shape.reverse, fun i => img.get i.reverse⟩

/-- An index of python: negative numbers count from the end. -/
def pyIndex (n : ℕ) (k : ℤ) : Except Err ℕ :=
  if 0 ≤ k ∧ k < n then .ok k.toNat
  else if k < 0 ∧ 0 ≤ k + n then .ok (k + n).toNat
  else .error .index

/-- The lengths of the axes named. -/
def lengths (shape dims : List ℕ) : List ℕ := dims.map (fun d => shape.getD d 0)

/-- What is taken along the axes of a grid with this number of cells: the axes in `kept` remain, the others as given by
`other` (from the axis and its length); the last axis of the data array, of the properties, at `p`. -/
def sels (nPix kept : List ℕ) (other : ℕ → ℕ → Sel) (p : ℕ) : List Sel :=
  nPix.zipIdx.map (fun q => if q.2 ∈ kept then Sel.keep else other q.2 q.1) ++ [Sel.one p]

/-- The image of the axes that remain, in the order in which they are in the grid. -/
def image [AddCommMonoid V] [AddCommMonoid W] (re : V →+ W) (a : Arr V) (nPix kept : List ℕ) (other : ℕ → ℕ → Sel)
    (p : ℕ) : Arr W :=
  ⟨lengths nPix kept, fun i => re (look (sels nPix kept other p) i a.get)⟩

/-- A picture with the labels of its axes. -/
structure Picture (K W : Type) where
  xlabel : ℕ × Option String
  ylabel : ℕ × Option String
  mesh : Mesh K W

/-- The axes that are not shown, line 1829. -/
def remaining (dim : ℕ) (ax : List ℕ) : List ℕ := (List.range dim).filter (fun d => decide (d ∉ ax))

/-- The axes that are shown, in the order of the grid. -/
def shownAxes (dim : ℕ) (ax : List ℕ) : List ℕ := (List.range dim).filter (fun d => decide (d ∈ ax))

section
variable [AddCommMonoid V] [AddCommMonoid W]

/-- The indices of the slices, lines 1835-1843: one for each axis that is not shown. -/
def sliceIndices (nPix rem : List ℕ) (slices : List ℤ) : Except Err (List ℕ) :=
  if slices.length ≠ rem.length then .error .value
  else mapE (fun q : ℕ × ℤ => pyIndex (nPix.getD q.1 0) q.2) (rem.zip slices)

/-- What is taken along the axes that are not shown, lines 1830-1843: `none` is `'sum'`. -/
def others (g : Grid K V) (rem : List ℕ) (slices : Option (List ℤ)) : Except Err (ℕ → ℕ → Sel) :=
  match slices with
  | none => .ok (fun _ n => .all n)
  | some l =>
    match sliceIndices g.nPix rem l with
    | .error e => .error e
    | .ok ks => .ok (fun d _ => .one (ks.getD (rem.idxOf d) 0))

/-- The image, lines 1829-1844: `[:,:,property]` needs exactly two axes beside that of the properties (an axis named
twice leaves one). -/
def viewImage (g : Grid K V) (re : V →+ W) (a : Arr V) (ax : List ℕ) (slices : Option (List ℤ)) (prop : ℤ) :
    Except Err (Arr W) :=
  match others g (remaining g.dim ax) slices with
  | .error e => .error e
  | .ok other =>
    if (shownAxes g.dim ax).length ≠ 2 then .error .index
    else
      match pyIndex g.nProps prop with
      | .error e => .error e
      | .ok p => .ok (image re a g.nPix (shownAxes g.dim ax) other p)

/-- `visualize`, lines 1790-1850. -/
def visualize (g : Grid K V) (re : V →+ W) (ax : List ℕ) (slices : Option (List ℤ)) (prop : ℤ) :
    Except Err (Picture K W) :=
  match g.grid with
  | none => .error .value
  | some a =>
    if g.dim < 2 then .error .value
    else
      match ax with
      | a0 :: a1 :: rest =>
        match g.axunits[a0]?, g.axunits[a1]? with                             -- lines 1822-1823
        | some u0, some u1 =>
          if rest ≠ [] then .error .value                                     -- line 1826
          else
            match viewImage g re a [a0, a1] slices prop with
            | .error e => .error e
            | .ok img =>
              match g.axes[a0]?, g.axes[a1]? with
              | some xs, some ys =>
                match pcolor xs ys (transpose img) with                       -- line 1848
                | .error e => .error e
                | .ok m => .ok ⟨(a0, u0), (a1, u1), m⟩
              | _, _ => .error .index
        | _, _ => .error .index
      | _ => .error .index

end

/-! ## `animate` -/

section
variable [Field K] [LinearOrder K] [FloorRing K] [AddCommMonoid V] [AddCommMonoid W]

/-- `_axis_edges`, which raises `IndexError` for fewer than two cells. -/
def edgesOr (l : List K) : Except Err (List K) :=
  match axisEdges l with
  | .error _ => .error .index
  | .ok e => .ok e

/-- The centres of the cells of an axis in the space it is in, lines 1886-1902. -/
def axisOf (g : Grid K V) (d : ℕ) : List K :=
  if g.fourier.getD d false then g.fcenters.getD d [] else g.centers.getD d []

/-- The positions of the slides, lines 1886-1890: half a pixel lower. -/
def slideAxis (g : Grid K V) (d : ℕ) : List K :=
  if g.fourier.getD d false then g.fcenters.getD d []
  else (g.centers.getD d []).map (fun x => x - g.pix.vals.getD d 0 / 2)

/-- The axes that are not summed over, line 1884. -/
def keptAxes (dim slide f0 f1 : ℕ) : List ℕ := shownAxes dim [slide, f0, f1]

/-- The cross section for slide `i`, lines 1935-1937, 1951-1953: `np.take(..., axis=slide_dim)` is used after the sum
over the other axes. -/
def faceImage (g : Grid K V) (re : V →+ W) (a : Arr V) (p slide f0 f1 i : ℕ) : Except Err (Arr W) :=
  let kept := keptAxes g.dim slide f0 f1
  match kept[slide]? with
  | none => .error .index
  | some t =>
    if g.nPix.getD t 0 ≤ i then .error .index
    else
      let two := kept.filter (fun d => decide (d ≠ t))
      let img := image re a g.nPix two (fun d n => if d = t then .one i else .all n) p
      .ok (if f0 < f1 then transpose img else img)

/-- The view from the side, lines 1921-1923. -/
def edgeImage (g : Grid K V) (re : V →+ W) (a : Arr V) (p slide f0 f1 : ℕ) : Arr W :=
  let img := image re a g.nPix ((keptAxes g.dim slide f0 f1).filter (fun d => decide (d ≠ f0))) (fun _ n => .all n) p
  if slide < f1 then transpose img else img

/-- One frame: the number in the title, the ends of the box in the side view, and the cross section. -/
structure Frame (K W : Type) where
  title : K
  box : K × K
  face : Mesh K W

/-- What `animate` draws. -/
structure Movie (K W : Type) where
  edge : Mesh K W
  first : Frame K W
  frames : List (Frame K W)

/-- A frame, lines 1928-1945 and 1948-1957; the number in the title is that of entry `t`. -/
def frame (g : Grid K V) (re : V →+ W) (a : Arr V) (p slide f0 f1 : ℕ) (pos ax0 ax1 ax2 : List K) (t i : ℕ) :
    Except Err (Frame K W) :=
  match pos[t]?, ax0[i]?, ax0[i+1]? with
  | some x, some l, some r =>
    match faceImage g re a p slide f0 f1 i with
    | .error e => .error e
    | .ok img =>
      match pcolor ax1 ax2 img with
      | .error e => .error e
      | .ok m => .ok ⟨x, (l, r), m⟩
  | _, _, _ => .error .index

/-- What is drawn, lines 1907-1957. -/
def movie (g : Grid K V) (re : V →+ W) (a : Arr V) (p slide f0 f1 i0 : ℕ) (ax0 ax1 ax2 : List K) :
    Except Err (Movie K W) :=
  match pcolor ax0 ax2 (edgeImage g re a p slide f0 f1) with
  | .error e => .error e
  | .ok edge =>
    match frame g re a p slide f0 f1 (slideAxis g slide) ax0 ax1 ax2 0 i0 with
    | .error e => .error e
    | .ok first =>
      match mapE (fun i => frame g re a p slide f0 f1 (slideAxis g slide) ax0 ax1 ax2 i i)
          (List.range (slideAxis g slide).length) with
      | .error e => .error e
      | .ok frames => .ok ⟨edge, first, frames⟩

/-- `animate`, lines 1853-1965: what is drawn and how it ends.  With `still` the frames are not made, and the last line
returns a variable that has no value. -/
def animate (g : Grid K V) (re : V →+ W) (p slide : ℕ) (face : List ℕ) (i0 : ℕ) (still : Bool) :
    Option (Movie K W) × Except Err Unit :=
  match g.grid with
  | none => (none, .error .value)
  | some a =>
    if g.dim < 3 ∨ g.nProps ≤ p ∨ g.dim ≤ slide ∨ (∃ d ∈ face, g.dim ≤ d) then (none, .error .value)
    else
      match face with
      | [f0, f1] =>
        match edgesOr (slideAxis g slide), edgesOr (axisOf g f0), edgesOr (axisOf g f1) with
        | .ok ax0, .ok ax1, .ok ax2 =>
          match movie g re a p slide f0 f1 i0 ax0 ax1 ax2 with
          | .error e => (none, .error e)
          | .ok m => if still then (some { m with frames := [] }, .error .unbound) else (some m, .ok ())
        | _, _, _ => (none, .error .index)
      | _ => (none, .error .value)

end

end Verif.Pic
