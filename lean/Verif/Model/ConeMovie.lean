import Mathlib.Algebra.Order.Floor.Ring
import Verif.Model.Plots
import Verif.Model.LCHandler

/-!
# Model of the animation of a lightcone (`simim/lightcone/lchandler.py:313-476`)

The animation is the list of what is drawn in its frames.  Figures, the colour bar, limits of the plots and the line
around the field on the sky are left out.  `d` is the comoving distance, `dt` the transverse one, `zAt` the function
`z_at_value` that inverts `d`, `log10` and `pi` are numpy's.  A property without values (`None`) is refused where it is
read.  The scale of the colours and sizes is `log`, `linear` or another text.
-/

namespace Verif.Cone

open Verif.Handler (Name V State Err returnProperty)
open Verif.LCH (Meta LCShape)
open Verif.Plot (logOf)

variable {K : Type}

/-- The arguments `colorscale` and `sizescale`. -/
inductive Scale where
  | log | linear | other
  deriving DecidableEq

/-- `return_property`, lines 344-350, 373, 384. -/
def column [DivisionRing K] (s : State K) (useAll inH : Bool) (p : Name) : Except Err (List (V K)) :=
  match returnProperty s p useAll (some inH) with
  | .error e => .error e
  | .ok none => .error .typeError
  | .ok (some l) => .ok l

/-- The numbers, if all are (neither NaN nor minus infinity). -/
def numbers : List (Option (V K)) → Option (List K)
  | [] => some []
  | some (some x) :: l => (numbers l).map (x :: ·)
  | _ :: _ => none

section
variable [Field K] [LinearOrder K]

/-- `np.amin` and `np.amax` of a list that is not empty. -/
def least (x : K) (l : List K) : K := l.foldr min x

@[inherit_doc least]
def largest (x : K) (l : List K) : K := l.foldr max x

/-- `(prop - min)/range`, lines 373-381 and 384-392: with NaN or minus infinity among the values, or a range of zero,
all results are NaN. -/
def scaled (log10 : K → K) (sc : Scale) (vs : List (V K)) : Except Err (List (V K)) :=
  let go (ws : List (Option (V K))) : Except Err (List (V K)) :=
    match vs with
    | [] => .error .valueError
    | _ =>
      match numbers ws with
      | some (k :: ks) =>
        let lo := least k ks
        let hi := largest k ks
        if hi - lo = 0 then .ok (vs.map (fun _ => none))
        else .ok ((k :: ks).map (fun x => some ((x - lo) / (hi - lo))))
      | _ => .ok (vs.map (fun _ => none))
  match sc with
  | .log => go (vs.map (logOf log10))
  | .linear => go (vs.map some)
  | .other => .error .valueError

/-- `(... + .2) * 5`, line 392. -/
def markers (l : List (V K)) : List (V K) := l.map (fun v => v.map (fun x => (x + 1 / 5) * 5))

/-- Number and width of the slides, lines 439-441; `none` if there is no slide (numpy divides by zero). -/
def slides [FloorRing K] (len : K) : Option (ℕ × ℕ) :=
  let n := ⌈len / 50⌉
  if n ≤ 0 then none else some (n.toNat, ⌈len / (n : K)⌉.toNat)

/-- One frame: the redshift in the title, the ends of the box in the side view, the sizes of the markers in the two
cross sections, and half the width of the line around the physical one. -/
structure Frame (K : Type) where
  title : K
  box : K × K
  sizes : List (V K)
  outline : K

/-- `new_sizes`, lines 453-455: comparisons with NaN are false. -/
def sizesIn (lo hi : K) (zs sizes : List (V K)) : List (V K) :=
  List.zipWith (fun z s => match z with
    | some z => if lo < z ∧ z < hi then s else some 0
    | none => some 0) zs sizes

/-- A frame, lines 443-470. -/
def frame (dt zAt : K → K) (angle lo0 : K) (step : ℕ) (zs sizes : List (V K)) (i : ℕ) : Frame K :=
  let z := zAt (lo0 + step * (i + 1 / 2))
  { title := z
    box := (lo0 + step * i, lo0 + step * (i + 1))
    sizes := sizesIn (lo0 + step * i) (lo0 + step * (i + 1)) zs sizes
    outline := dt z * angle / 2 }

/-- The animation: positions along the line of sight and across (lines 413, 423), on the sky in arcmin (line 432),
colours, and the frames. -/
structure Movie (K : Type) where
  zs : List (V K)
  xs : List (V K)
  ys : List (V K)
  ra : List (V K)
  dec : List (V K)
  colors : List (V K)
  frames : List (Frame K)

/-- The positions, lines 344-350. -/
def positions (s : State K) (useAll inH : Bool) : Except Err (List (List (V K))) :=
  mapE (column s useAll inH) ["pos_x", "pos_y", "pos_z", "ra", "dec", "redshift"]

/-- `animate`, lines 314-476. -/
def animate [FloorRing K] (log10 : K → K) (pi : K) (d dt zAt : K → K) (s : State K) (m : Meta K) (useAll : Bool)
    (cname : Name) (cscale : Scale) (sname : Name) (sscale : Scale) (inH : Option Bool) :
    Option (Except Err (Movie K)) :=
  let inH := inH.getD s.inH
  match positions s useAll inH with
  | .error e => some (.error e)
  | .ok cols =>
    match m.angle with
    | none => some (.error .keyError)                                          -- line 353
    | some angle =>
      let hi := d m.zmax * s.h
      let lo := d m.zmin * s.h
      match column s useAll inH cname with
      | .error e => some (.error e)
      | .ok c =>
        match scaled log10 cscale c with
        | .error e => some (.error e)
        | .ok colors =>
          match column s useAll inH sname with
          | .error e => some (.error e)
          | .ok z =>
            match scaled log10 sscale z with
            | .error e => some (.error e)
            | .ok sz =>
              match slides (hi - lo) with
              | none => none
              | some (n, step) =>
                let zs := cols.getD 2 []
                let arcmin (l : List (V K)) := l.map (fun v => v.map (fun x => x * 180 / pi * 60))
                some (.ok { zs := zs, xs := cols.getD 0 [], ys := cols.getD 1 []
                            ra := arcmin (cols.getD 3 []), dec := arcmin (cols.getD 4 [])
                            colors := colors
                            frames := (List.range n).map (frame dt zAt angle lo step zs (markers sz)) })

end

end Verif.Cone
