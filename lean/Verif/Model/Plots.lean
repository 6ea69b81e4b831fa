import Verif.Model.Exc
import Verif.Model.Handler

/-!
# Model of the plots of a handler (`simim/_handlers.py:542-663`) and the lists of its properties (`_handlers.py:79-102`)

A plot is the list of what is drawn.  `plt.show`, saving, legends and the settings of the axes are left out, as are
keywords that matplotlib does not know.  Keywords and their values are strings.
-/

namespace Verif.Plot

open Verif.Handler (Name V State Err returnProperty)

variable {K : Type}

/-- The argument `use_all_inds` of `plot`, `_handlers.py:556-560`. -/
inductive Pick where
  | active
  | all
  | compare
  deriving DecidableEq

/-- A call of `ax.plot(x, y, ...)`, `_handlers.py:592-603`. -/
structure Curve (K : Type) where
  xs : List (V K)
  ys : List (V K)
  color : Option String
  label : Option Name
  style : PyDict String String
  deriving DecidableEq

/-- The missing entries of `plotkws` are added to the dictionary itself, `_handlers.py:587-590`. -/
def addStyle (kws : PyDict String String) : PyDict String String :=
  let kws := if !kws.has "ls" && !kws.has "linestyle" then kws.set "ls" "" else kws
  if !kws.has "marker" then kws.set "marker" "." else kws

section
variable [DivisionRing K]

/-- `ax.plot(x, y, color=color, **plotkws, label=label)`: a keyword given twice is a `TypeError`; matplotlib refuses
`None` instead of values. -/
def drawCurve (x y : Option (List (V K))) (color : Option String) (label : Option Name) (kws : PyDict String String) :
    Except Err (Curve K) :=
  if color.isSome && kws.has "color" then .error .typeError
  else if label.isSome && kws.has "label" then .error .typeError
  else
    match x, y with
    | some x, some y => .ok ⟨x, y, color, label, kws⟩
    | _, _ => .error .valueError

/-- Two properties of the same objects, `_handlers.py:594-595`, `597-598`, `601-602`. -/
def pair (s : State K) (xname yname : Name) (useAll : Bool) (inH : Option Bool) :
    Except Err (Option (List (V K)) × Option (List (V K))) :=
  match returnProperty s xname useAll inH with
  | .error e => .error e
  | .ok x =>
    match returnProperty s yname useAll inH with
    | .error e => .error e
    | .ok y => .ok (x, y)

/-- What is drawn for one name, `_handlers.py:592-603`. -/
def curves (s : State K) (xname : Name) (pick : Pick) (inH : Bool) (kws : PyDict String String) (yname : Name) :
    Except Err (List (Curve K)) :=
  match pick with
  | .compare =>
    match pair s xname yname true (some inH) with
    | .error e => .error e
    | .ok (x, y) =>
      match drawCurve x y (some "k") (some yname) kws with
      | .error e => .error e
      | .ok c1 =>
        match pair s xname yname false (some inH) with
        | .error e => .error e
        | .ok (x, y) =>
          match drawCurve x y (some "r") none kws with
          | .error e => .error e
          | .ok c2 => .ok [c1, c2]
  | _ =>
    match pair s xname yname (decide (pick = .all)) (some inH) with
    | .error e => .error e
    | .ok (x, y) =>
      match drawCurve x y none (some yname) kws with
      | .error e => .error e
      | .ok c => .ok [c]

/-- `plot`, `_handlers.py:542-609`: what is drawn, and the dictionary `plotkws` afterwards. -/
def plot (s : State K) (xname : Name) (ynames : List Name) (pick : Pick) (kws : PyDict String String)
    (inH : Option Bool) : Except Err (List (Curve K)) × PyDict String String :=
  let kws := addStyle kws
  match mapE (curves s xname pick (inH.getD s.inH) kws) ynames with
  | .error e => (.error e, kws)
  | .ok cs => (.ok cs.flatten, kws)

/-- A call of `plot` with a dictionary of its own, or without one: then the dictionary is the default value, which
belongs to the function and is the same object in all these calls (`_handlers.py:545`). -/
structure Call (K : Type) where
  state : State K
  xname : Name
  ynames : List Name
  pick : Pick
  kws : Option (PyDict String String)
  inH : Option Bool

/-- Several calls one after the other; `d` is the default dictionary. -/
def session (d : PyDict String String) : List (Call K) → List (Except Err (List (Curve K)))
  | [] => []
  | c :: rest =>
    match c.kws with
    | some kws => (plot c.state c.xname c.ynames c.pick kws c.inH).1 :: session d rest
    | none =>
      let r := plot c.state c.xname c.ynames c.pick d c.inH
      r.1 :: session r.2 rest

/-- What a histogram is made of: `ax.hist(x, **plotkws, label=pn)`, `_handlers.py:657`. -/
structure Hist (K : Type) where
  values : List (V K)
  label : Name
  style : PyDict String String
  deriving DecidableEq

/-- `np.log10`: minus infinity for zero (`none`), NaN for negative numbers. -/
def logOf [LinearOrder K] (log10 : K → K) : V K → Option (V K)
  | none => some none
  | some x => if x = 0 then none else if x < 0 then some none else some (some (log10 x))

/-- One property, `_handlers.py:652-657`.  matplotlib refuses `None`; numpy refuses to find the range of values that
are not finite: minus infinity, or only NaN. -/
def histOne [LinearOrder K] (log10 : K → K) (s : State K) (useAll logT inH : Bool) (kws : PyDict String String)
    (pn : Name) : Except Err (Hist K) :=
  match returnProperty s pn useAll (some inH) with
  | .error e => .error e
  | .ok none => .error .typeError
  | .ok (some x) =>
    if kws.has "label" then .error .typeError
    else
      let y := if logT then x.map (logOf log10) else x.map some
      if !kws.has "range" && (y.any (fun v => v.isNone) || (!x.isEmpty && y.all (fun v => decide (v = some none)))) then
        .error .valueError
      else .ok ⟨y.map (fun v => v.getD none), pn, kws⟩

/-- `hist`, `_handlers.py:611-663`. -/
def hist [LinearOrder K] (log10 : K → K) (s : State K) (names : List Name) (useAll logT : Bool)
    (kws : PyDict String String) (inH : Option Bool) : Except Err (List (Hist K)) :=
  mapE (histOne log10 s useAll logT (inH.getD s.inH) kws) names

end

/-- `extract_keys`, `_handlers.py:79-102`. -/
def extractKeys (s : State K) (set : String) : Except Err (List Name) :=
  if set = "any" then .ok s.all
  else if set = "loaded" then .ok s.loaded.keys
  else if set = "saved" then .ok s.saved
  else if set = "generated" then .ok s.generated
  else .error .valueError

/-- The caller appends a name to the list that `extract_keys` returned: for `any`, `saved` and `generated` it is the
handler's own list (`_handlers.py:94-101`), for `loaded` a new one. -/
def appendTo (s : State K) (set : String) (p : Name) : State K :=
  if set = "any" then { s with all := s.all ++ [p] }
  else if set = "saved" then { s with saved := s.saved ++ [p] }
  else if set = "generated" then { s with generated := s.generated ++ [p] }
  else s

end Verif.Plot
