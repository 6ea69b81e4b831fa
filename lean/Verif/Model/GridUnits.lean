import Verif.Model.Grid

/-!
# Model of the units of the axes when axes are rescaled (`simim/map/gridder.py`)

The units of the axes are kept in numpy arrays.  An array made of texts only has entries of a fixed number of
letters, the length of the longest one; what is stored later is cut off there.  An array with `None` in it holds
any objects.  `Verif.Model.Grid` models `scale_axis` for `axunits='same'` only; here it takes units.
-/

namespace Verif.Map

open Verif.Sim (Err)

/-- The number of letters an entry of `np.array(l)` can hold (lines 152-161): that of the longest text (at least
one), or no limit if there is a `None` (an array of objects).  Simplification: `l` is not empty. -/
def widthOf (l : List (Option String)) : Option ℕ :=
  if l.all Option.isSome then some ((l.map (fun u => (u.getD "").length)).foldl max 1) else none

/-- What `array[i] = u` stores (lines 443-453): in an array of texts `None` becomes the text "None", and texts are
cut off. -/
def storeUnit (width : Option ℕ) (u : Option String) : Option String :=
  match width with
  | none => u
  | some w => some (String.ofList ((u.getD "None").toList.take w))

/-- A grid with the sizes of the entries of its arrays `axunits` and `fourier_axunits` (lines 150-161). -/
structure UGrid (K V : Type) where
  g : Grid K V
  width : Option ℕ
  fwidth : Option ℕ

/-- The argument `axunits` of `scale_axis` (lines 442-455): 'same', `None`, one text, or a list of two or more
(texts or `None`).  A list with a single unit, an exception, is not modelled; nor is an array. -/
inductive UnitArg where
  | same
  | none
  | text (u : String)
  | many (u v : Option String) (rest : List (Option String))

variable {K V : Type} [Field K] [LinearOrder K] [FloorRing K]

/-- `Grid.__init__`, lines 126-198, with the arrays of units (150-161). -/
def UGrid.new (nProps : ℕ) (center side pix : NArr K)
    (axunits gridunits : Option (List (Option String)) := none) : Except Err (UGrid K V) :=
  match Grid.new nProps center side pix axunits gridunits with
  | .error e => .error e
  | .ok g => .ok ⟨g, widthOf g.axunits, widthOf g.faxunits⟩

/-- `self.axunits[i] = a` and `self.fourier_axunits[i] = f` (lines 443-453). -/
def UGrid.label (x : UGrid K V) (i : ℕ) (a f : Option String) : UGrid K V :=
  { x with g := { x.g with
      axunits := x.g.axunits.set i (storeUnit x.width a),
      faxunits := x.g.faxunits.set i (storeUnit x.fwidth f) } }

/-- Lines 442-455, for axis `i` out of `k`.  In a list line 452 takes `axunits[i]` (not the unit given for this
entry of `ax`); adding to `None` in line 453 is a `TypeError`. -/
def setUnits (x : UGrid K V) (arg : UnitArg) (k i : ℕ) : UGrid K V × Except Err Unit :=
  match arg with
  | .none => (x.label i none none, .ok ())                                      -- lines 442-444
  | .same => (x, .ok ())                                                        -- lines 445-447
  | .text u => (x.label i (some u) (some (u ++ "^-1")), .ok ())                 -- lines 448-450
  | .many u v rest =>
    if (u :: v :: rest).length = k then                                         -- lines 451-453
      match (u :: v :: rest)[i]? with
      | none => (x, .error .indexError)
      | some (some t) => (x.label i (some t) (some (t ++ "^-1")), .ok ())
      | some none =>
        ({ x with g := { x.g with axunits := x.g.axunits.set i (storeUnit x.width none) } }, .error .typeError)
    else (x, .error .valueError)                                                -- lines 454-455

/-- The body of the loop, lines 435-467, for axis `i` out of `k`. -/
def scaleOneU (x : UGrid K V) (factor : List K) (arg : UnitArg) (k : ℕ) (scaleCenter : Bool) (i : ℕ) :
    UGrid K V × Except Err Unit :=
  match factor[i]? with
  | none => (x, .error .indexError)
  | some f =>
    let g1 := if scaleCenter then
        { x.g with center := x.g.center.put i (x.g.center.vals.getD i 0 * f) } else x.g
    let g2 := { g1 with
      side := g1.side.put i (g1.side.vals.getD i 0 * f),
      pix := g1.pix.put i (g1.pix.vals.getD i 0 * f) }
    match setUnits { x with g := g2 } arg k i with
    | (x3, .error e) => (x3, .error e)
    | (x3, .ok ()) =>
      if scaleCenter then
        ({ x3 with g := { x3.g with
          axes := x3.g.axes.modify i (fun l => l.map (· * f)),
          centers := x3.g.centers.modify i (fun l => l.map (· * f)),
          faxes := x3.g.faxes.modify i (fun l => l.map (· / f)),
          fcenters := x3.g.fcenters.modify i (fun l => l.map (· / f)) } }, .ok ())
      else (x3, .error .attributeError)

/-- The loop, lines 435-467. -/
def scaleLoopU (factor : List K) (arg : UnitArg) (k : ℕ) (scaleCenter : Bool) :
    List ℕ → UGrid K V → UGrid K V × Except Err Unit
  | [], x => (x, .ok ())
  | i :: rest, x =>
    match scaleOneU x factor arg k scaleCenter i with
    | (x', .error e) => (x', .error e)
    | (x', .ok ()) => scaleLoopU factor arg k scaleCenter rest x'

/-- `scale_axis`, lines 401-467. -/
def UGrid.scaleAxis (x : UGrid K V) (ax : List ℕ) (factor : List K) (arg : UnitArg) (scaleCenter : Bool := true) :
    UGrid K V × Except Err Unit :=
  if ∃ a ∈ ax, x.g.dim ≤ a then (x, .error .valueError)
  else
    match scaleSpread factor ax.length with
    | .error e => (x, .error e)
    | .ok factor => scaleLoopU factor arg ax.length scaleCenter ax x

/-- A call of `scale_axis` (lines 401-467) with its arguments. -/
structure ScaleCall (K : Type) where
  ax : List ℕ
  factor : List K
  arg : UnitArg
  scaleCenter : Bool := true

/-- Calls of `scale_axis` one after another, whether or not they raise (lines 401-467). -/
def scaleAll (calls : List (ScaleCall K)) (x : UGrid K V) : UGrid K V :=
  calls.foldl (fun x c => (x.scaleAxis c.ax c.factor c.arg c.scaleCenter).1) x

end Verif.Map
