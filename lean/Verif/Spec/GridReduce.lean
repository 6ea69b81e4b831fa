import Verif.Spec.GridAdd
import Verif.Model.GridReduce

/-!
# Vocabulary for statements about collapsed grids
-/

namespace Verif.Map.Spec

variable {K V : Type}

/-- The weight of cell `c` when axis `ax` is collapsed: one for each position along the axis, one for
each cell, or (none given) always one. -/
def weightAt [One K] (w : Option (Arr K)) (ax : ℕ) (c : List ℕ) : K :=
  match w with
  | none => 1
  | some w => if w.shape.length = 1 then w.get [c.getD ax 0] else w.get c

/-- The sum of `f` over the `n` cells along axis `ax` that differ from `c` only there
(`c` lacks that axis). -/
def alongAxis [AddCommMonoid V] (n ax : ℕ) (c : List ℕ) (f : List ℕ → V) : V :=
  ((List.range n).map (fun j : ℕ => f (c.insertIdx ax j))).sum

/-- `h` has the description of `g` without axis `ax`. -/
structure Without (g h : Grid K V) (ax : ℕ) : Prop where
  center : h.center.vals = g.center.vals.eraseIdx ax
  side : h.side.vals = g.side.vals.eraseIdx ax
  pix : h.pix.vals = g.pix.vals.eraseIdx ax
  nPix : h.nPix = g.nPix.eraseIdx ax
  axunits : h.axunits = g.axunits.eraseIdx ax
  faxunits : h.faxunits = g.faxunits.eraseIdx ax
  axes : h.axes = g.axes.eraseIdx ax
  centers : h.centers = g.centers.eraseIdx ax
  faxes : h.faxes = g.faxes.eraseIdx ax
  fcenters : h.fcenters = g.fcenters.eraseIdx ax
  fourier : h.fourier = g.fourier.eraseIdx ax
  nProps : h.nProps = g.nProps
  nObj : h.nObj = g.nObj
  isPow : h.isPow = g.isPow

end Verif.Map.Spec
