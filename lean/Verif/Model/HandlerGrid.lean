import Verif.Model.GridMake
import Verif.Model.LCHandler
import Mathlib.Algebra.Order.Monoid.WithTop

/-!
# Model of `SnapHandler.grid` (`simim/siminterface/simhandler.py`) and `LCHandler.grid`
(`simim/lightcone/lchandler.py`)

Simplifications: numbers are exact; positions are floating point numbers; values are numbers or NaN,
which is `⊤` (it absorbs in sums).  If a position is NaN (or a redshift is -1 and a frequency is asked for)
the cell is a matter of the platform: the result is `none`, "not described".
-/

namespace Verif.HGrid

open Verif.Handler (Name V State returnProperty)
open Verif.Sim (Err)
open Verif.Map

variable {K : Type}

/-- Exceptions of a handler. -/
def lift : Verif.Handler.Err → Err
  | .valueError => .valueError
  | .keyError => .keyError
  | .typeError => .typeError
  | .indexError => .indexError
  | .attributeError => .attributeError

/-- A column; `return_property` returning `None` makes the arrays in `simhandler.py:126-129, 150` and
`lchandler.py:269-274, 298` ones of objects or fail (here always: `ValueError`). -/
def readOne [DivisionRing K] (s : State K) (useAll inH : Bool) (p : Name) : Except Err (List (V K)) :=
  match returnProperty s p useAll (some inH) with
  | .error e => .error (lift e)
  | .ok none => .error .valueError
  | .ok (some v) => .ok v

/-- The columns of the positions and of the properties, `simhandler.py:126-129`, `lchandler.py:269-274`. -/
def readAll [DivisionRing K] (s : State K) (useAll inH : Bool) (axes names : List Name) :
    Except Err (List (List (V K)) × List (List (V K))) :=
  match mapE (readOne s useAll inH) axes with
  | .error e => .error e
  | .ok pos =>
    match mapE (readOne s useAll inH) names with
    | .error e => .error e
    | .ok props => .ok (pos, props)

/-- `np.array(cols).T` for columns of the length of the first one; other lengths do not occur. -/
def rowsOf {α : Type} [Inhabited α] (cols : List (List α)) : List (List α) :=
  match cols with
  | [] => []
  | c :: _ => (List.range c.length).map (fun i => cols.map (fun c => c.getD i default))

/-- A stored value: a number or NaN. -/
def value (v : V K) : WithTop K :=
  match v with
  | some x => (x : WithTop K)
  | none => ⊤

/-- The numbers of the rows if there is no NaN among them. -/
def allNumbers (rows : List (List (V K))) : Option (List (List K)) :=
  if rows.all (fun r => r.all Option.isSome) then some (rows.map (fun r => r.filterMap id)) else none

/-- The argument `norm`. -/
inductive Norm (K : Type) where
  | none
  | cellVolume
  | factor (x : K)

section
variable [Field K] [LinearOrder K] [FloorRing K]

/-- `grid.grid *= norm`. -/
def scale (k : K) (g : Grid K (WithTop K)) : Grid K (WithTop K) :=
  { g with grid := g.grid.map (fun a => ⟨a.shape, fun i => (a.get i).map (fun x => k * x)⟩) }

/-- The factor, `simhandler.py:154-157`. -/
def Norm.of (n : Norm K) (g : Grid K (WithTop K)) : K :=
  match n with
  | .none => 1
  | .cellVolume => 1 / g.pix.vals.prod
  | .factor x => x

/-- The last part of both functions, `simhandler.py:147-161`, `lchandler.py:295-309`.  Without property
names the array of values is empty and one-dimensional. -/
def finish (pos : List (List K)) (props : List (List (V K))) (center side : List K) (ints : Bool)
    (res : Option (NArr K)) (norm : Norm K) : Except Err (Grid K (WithTop K)) :=
  let pix := res.getD ⟨false, side.map (· / 100)⟩
  let vals : Vals (WithTop K) :=
    if props = [] then { cols := 1, rows := [] }
    else { cols := props.length, rows := (rowsOf props).map (fun r => r.map value) }
  match gridder { rows := pos } (some vals) (some ⟨false, center⟩) (some ⟨ints, side⟩) pix with
  | .error e => .error e
  | .ok g => .ok (scale (norm.of g) g)

/-- One limit given: centre and length, `simhandler.py:141-145`, `lchandler.py:288-292`. -/
def limit (lim : List K) : Except Err (K × K) :=
  match lim with
  | [a, b] => .ok ((a + b) / 2, max a b - min a b)
  | _ => .error .valueError

/-- A limit of a snapshot, `simhandler.py:137-145`. -/
def limitOr (side : K) (lim : Option (NArr K)) : Except Err (K × K) :=
  match lim with
  | none => .ok (side / 2, side)
  | some l => limit l.vals

/-- Whether the side lengths are integers: only if all limits are. -/
def intLimits (lims : List (Option (NArr K))) : Bool :=
  lims.all (fun l => match l with | none => false | some a => a.isInt)

/-- `SnapHandler.grid`, `simhandler.py:80-161`. -/
def snapGrid (s : State K) (boxH : K) (names : List Name) (inH : Option Bool := none)
    (useAll : Bool := false) (res xlim ylim zlim : Option (NArr K) := none) (norm : Norm K := .none) :
    Option (Except Err (Grid K (WithTop K))) :=
  let inH := inH.getD s.inH                                             -- lines 123-124
  match readAll s useAll inH ["pos_x", "pos_y", "pos_z"] names with     -- lines 126-129
  | .error e => some (.error e)
  | .ok (pos, props) =>
    let side := if inH then boxH else boxH / s.h                        -- lines 131-134
    match mapE (limitOr side) [xlim, ylim, zlim] with                   -- lines 136-145
    | .error e => some (.error e)
    | .ok cl =>
      match allNumbers (rowsOf pos) with
      | none => none
      | some rows =>
        some (finish rows props (cl.map (·.1)) (cl.map (·.2)) (intLimits [xlim, ylim, zlim]) res norm)

/-- The redshifts as observed frequencies, `lchandler.py:274-275`. -/
def toFreq (f : Option K) (zs : List (V K)) : List (V K) :=
  match f with
  | none => zs
  | some f => zs.map (fun z => z.bind (fun z => if 1 + z = 0 then none else some (f / (1 + z))))

/-- The columns of the positions, the last one as observed frequencies, `lchandler.py:274-275, 301`. -/
def lcColumns (freq : Option K) (pos : List (List (V K))) : List (List (V K)) :=
  match pos with
  | [ra, dec, z] => [ra, dec, toFreq freq z]
  | p => p

/-- The limits in right ascension, `lchandler.py:278-279`; light spheres do not have the attributes
`open_angle` and `aspect_ratio` (lines 93-97). -/
def raLimits (m : Verif.LCH.Meta K) (ralim : Option (NArr K)) : Except Err (List K) :=
  match ralim with
  | some l => .ok l.vals
  | none => match m.angle with
    | none => .error .attributeError
    | some a => .ok [-a / 2, a / 2]

/-- The limits in declination, `lchandler.py:280-281`. -/
def decLimits (m : Verif.LCH.Meta K) (declim : Option (NArr K)) : Except Err (List K) :=
  match declim with
  | some l => .ok l.vals
  | none => match m.angle, m.aspect with
    | some a, some r => .ok [-a * r / 2, a * r / 2]
    | _, _ => .error .attributeError

/-- The limits in redshift or frequency, `lchandler.py:282-286`. -/
def zLimits (m : Verif.LCH.Meta K) (freq : Option K) (zlim : Option (NArr K)) : List K :=
  match zlim with
  | some l => l.vals
  | none => match freq with
    | some f => [f / (1 + m.zmax), f / (1 + m.zmin)]
    | none => [m.zmin, m.zmax]

/-- The limits of a lightcone, `lchandler.py:278-286`. -/
def lcLimits (m : Verif.LCH.Meta K) (freq : Option K) (ralim declim zlim : Option (NArr K)) :
    Except Err (List (List K)) :=
  match raLimits m ralim with
  | .error e => .error e
  | .ok ra =>
    match decLimits m declim with
    | .error e => .error e
    | .ok dec => .ok [ra, dec, zLimits m freq zlim]

/-- `LCHandler.grid`, `lchandler.py:220-309`.  The default unit setting is the one of the handler; redshifts
above -1. -/
def lcGrid (s : State K) (m : Verif.LCH.Meta K) (names : List Name) (freq : Option K := none)
    (inH : Option Bool := none) (useAll : Bool := false)
    (res ralim declim zlim : Option (NArr K) := none) (norm : Option K := none) :
    Option (Except Err (Grid K (WithTop K))) :=
  let inH := inH.getD s.inH                                             -- lines 268-269
  match readAll s useAll inH ["ra", "dec", "redshift"] names with       -- lines 271-276
  | .error e => some (.error e)
  | .ok (pos, props) =>
    match lcLimits m freq ralim declim zlim with                        -- lines 278-286
    | .error e => some (.error e)
    | .ok lims =>
      match mapE limit lims with                                        -- lines 288-296
      | .error e => some (.error e)
      | .ok cl =>
        match allNumbers (rowsOf (lcColumns freq pos)) with
        | none => none
        | some rows =>
          some (finish rows props (cl.map (·.1)) (cl.map (·.2)) (intLimits [ralim, declim, zlim]) res
            (match norm with | none => .none | some x => .factor x))
end

end Verif.HGrid
