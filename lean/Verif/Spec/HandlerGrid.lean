import Verif.Spec.GridAdd
import Verif.Model.HandlerGrid

/-!
# Vocabulary for statements about gridded snapshots and lightcones
-/

namespace Verif.HGrid.Spec

open Verif.Handler (Name V State returnProperty)
open Verif.Map Verif.Map.Spec

variable {K : Type}

/-- What `return_property` returns for the positions and the properties, object by object: three coordinates
that are numbers, and values that may be NaN. -/
structure Catalogue [DivisionRing K] (s : State K) (useAll : Bool) (inH : Option Bool)
    (axes names : List Name) (objs : List (List K × List (V K))) : Prop where
  positions : ∀ (k : ℕ) p, axes[k]? = some p →
    returnProperty s p useAll inH = .ok (some (objs.map (fun o => o.1[k]?)))
  values : ∀ (k : ℕ) p, names[k]? = some p →
    returnProperty s p useAll inH = .ok (some (objs.map (fun o => o.2.getD k none)))
  coordinates : ∀ o ∈ objs, o.1.length = axes.length
  number : ∀ o ∈ objs, o.2.length = names.length

/-- Value `p` of an object; NaN is `⊤`. -/
def valueOf (p : ℕ) (o : List K × List (V K)) : WithTop K :=
  match o.2.getD p none with
  | some x => (x : WithTop K)
  | none => ⊤

/-- The pixel sizes asked for: by default a hundredth of the side lengths; one number is used on all axes. -/
def pixels [Field K] (side : List K) (res : Option (NArr K)) : List K :=
  match res with
  | none => side.map (· / 100)
  | some a => match a.vals with
    | [r] => [r, r, r]
    | l => l

variable [Field K] [LinearOrder K]

/-- Centre and length of an axis: of the box by default, otherwise of the interval between the two limits, in
either order. -/
def Limits (side : K) (lim : Option (NArr K)) (c l : K) : Prop :=
  match lim with
  | none => c = side / 2 ∧ l = side
  | some a => ∃ lo hi, lo ≤ hi ∧ (a.vals = [lo, hi] ∨ a.vals = [hi, lo]) ∧ c = (lo + hi) / 2 ∧ l = hi - lo

/-- A position in a region, given by the lower and upper limit on each axis; the upper limit is not included. -/
def InRegion (region : List (K × K)) (row : List K) : Prop :=
  List.Forall₂ (fun q x => q.1 ≤ x ∧ x < q.2) region row

instance (region : List (K × K)) (row : List K) : Decidable (InRegion region row) := by
  unfold InRegion; infer_instance

/-- The grid has the objects in it: axes around `center` as long as asked for up to a part of a pixel, in each
cell the sum over the objects in it times `k`, and the number of objects inside. -/
structure Gridded (g : Grid K (WithTop K)) (objs : List (List K × List (V K))) (n : ℕ)
    (center side pix : List K) (k : K) : Prop where
  regular : Regular g
  nProps : g.nProps = n
  axis : ∀ (i : ℕ) (s w c : K), side[i]? = some s → pix[i]? = some w → center[i]? = some c →
    ∃ m : ℕ, AxisIs g i m w c ∧ s - w / 20 ≤ m * w ∧ m * w < s + 19 / 20 * w
  dim : g.axes.length = 3
  cells : ∃ b, g.grid = some b ∧ b.shape = g.nPix ++ [n] ∧
    ∀ c p, p < n → cell b c p =
      (cellSum g.axes c (objs.map (fun o => (o.1, valueOf p o)))).map (fun x => k * x)
  real : ∀ f ∈ g.fourier, f = false

/-- The limits on one axis of a lightcone: the default ones, if there are any, or two numbers in either order. -/
def Interval (default : Option (K × K)) (lim : Option (NArr K)) (lo hi : K) : Prop :=
  lo < hi ∧ match lim with
    | none => default = some (lo, hi)
    | some a => a.vals = [lo, hi] ∨ a.vals = [hi, lo]

/-- Default limits: the opening angle in right ascension, times the aspect ratio in declination. -/
def raDefault (m : Verif.LCH.Meta K) : Option (K × K) := m.angle.map (fun a => (-(a / 2), a / 2))

@[inherit_doc raDefault]
def decDefault (m : Verif.LCH.Meta K) : Option (K × K) :=
  match m.angle, m.aspect with
  | some a, some r => some (-(a * r / 2), a * r / 2)
  | _, _ => none

/-- Default limits: the redshifts, or the frequencies `f / (1 + z)` at which a line is observed. -/
def zDefault (m : Verif.LCH.Meta K) (freq : Option K) : Option (K × K) :=
  match freq with
  | none => some (m.zmin, m.zmax)
  | some f => some (f / (1 + m.zmax), f / (1 + m.zmin))

/-- An object with its redshift, or the frequency at which the line is observed, as third coordinate. -/
def observed (freq : Option K) (o : List K × List (V K)) : List K × List (V K) :=
  match freq with
  | none => o
  | some f => (o.1.modify 2 (fun z => f / (1 + z)), o.2)

end Verif.HGrid.Spec
