import Verif.Model.Handler

/-!
# Several handlers on one file

`_handlers.py`: a `Handler` looks at the file when it is made (lines 36-60), and then opens it anew for every single
access (lines 159, 231, 374, 404).  Between two calls of one handler, calls of other handlers on the same group may
change the file.

Simplification: a call is not interrupted by calls of other handlers (they are made in turn, as in one Python process).
-/

namespace Verif.Handler

variable {K : Type}

/-- The file (one group of it, and the power of h it was made with), and the handlers by number. -/
structure World (K : Type) where
  file : PyDict Name (Dataset K)
  h : K
  hs : ℕ → Option (State K)

/-- What is done with handler number `i`: it is made (`_handlers.py:16-63`; the classes for snapshots and lightcones add
further numbers, `extra`), or one of its methods is called. -/
inductive Turn (K : Type) where
  | open (inH : Bool) (extra : PyDict Name K)
  | call (op : Op K)

/-- A handler and the file as it is now. -/
def World.view (w : World K) (i : ℕ) : Option (State K) := (w.hs i).map fun s => { s with file := w.file }

/-- A file that nobody has opened yet. -/
def World.start (file : PyDict Name (Dataset K)) (h : K) : World K := { file := file, h := h, hs := fun _ => none }

/-- What a call returns or raises; `ok none` is Python's `None`. -/
abbrev Reply (K : Type) := Except Err (Option (List (V K)))

/-- What a call returns (the methods of `_handlers.py:142-465`; all but `return_property` return nothing). -/
def reply [DivisionRing K] [LE K] [DecidableLE K] (s : State K) : Op K → Reply K
  | .load ps => (load s ps).2.map fun _ => none
  | .unload _ => .ok none
  | .ret p u i => returnProperty s p u i
  | .make m o => (make s m o).2.map fun _ => none
  | .write ps ov => (write s ps ov).2.map fun _ => none
  | .delete ps => (delete s ps).2.map fun _ => none
  | .range p lo hi reset inH => (setRange s p lo hi reset inH).2.map fun _ => none
  | .setInH _ => .ok none

/-- The world after a turn of handler `i`.  If a handler cannot be made, the name keeps its old object. -/
def World.turn [DivisionRing K] [LE K] [DecidableLE K] (w : World K) (i : ℕ) : Turn K → World K
  | .open inH extra =>
    match init w.file w.h inH with
    | .error _ => w
    | .ok s => { w with hs := fun j => if j = i then some { s with extra := extra } else w.hs j }
  | .call op =>
    match w.view i with
    | none => w
    | some s =>
      { w with file := (step s op).file, hs := fun j => if j = i then some (step s op) else w.hs j }

/-- A sequence of turns. -/
def World.run [DivisionRing K] [LE K] [DecidableLE K] (w : World K) (ts : List (ℕ × Turn K)) : World K :=
  ts.foldl (fun w t => w.turn t.1 t.2) w

/-- What the calls of handler `i` in a sequence of turns return. -/
def World.replies [DivisionRing K] [LE K] [DecidableLE K] (i : ℕ) : World K → List (ℕ × Turn K) → List (Reply K)
  | _, [] => []
  | w, (j, t) :: ts =>
    let rest := World.replies i (w.turn j t) ts
    match t, w.view i with
    | .call op, some s => if j = i then reply s op :: rest else rest
    | _, _ => rest

end Verif.Handler
