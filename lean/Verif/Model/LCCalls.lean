import Verif.Model.LCMap

/-!
# Model of `LCIterator` (`simim/lightcone/lchandler.py:519-581`)

Simplifications: the numbers of lightcones are natural numbers and are used as keys instead of
`str(number)`; the calls are those of `LCIterator` that are created in lines 567-581; printing is
left out.
-/

namespace Verif.LCI

open Verif.Handler (Name V Err State Arg MultiProp MakeOpts)
open Verif.LCH (Attrs iterInit EvoArgs evalStatEvo)

variable {K : Type} {α : Type}

/-- The argument `numbers`. -/
inductive Numbers where
  | all
  | list (l : List ℕ)
  /-- One number that is not in a list. -/
  | scalar (n : ℕ)

/-- An `LCIterator`: `n_lcs`, `lc_numbers`, `lc_handlers` and `is_consistent`. -/
structure Iter (K : Type) where
  n : ℕ
  numbers : List ℕ
  handlers : PyDict ℕ (State K)
  consistent : Bool

/-- The loop over the numbers, `lchandler.py:541-543`; `open1` is `LCHandler.__init__`. -/
def openHandlers (open1 : ℕ → Except Err (State K)) :
    List ℕ → PyDict ℕ (State K) → Except Err (PyDict ℕ (State K))
  | [], acc => .ok acc
  | i :: is, acc =>
    match open1 i with
    | .error e => .error e
    | .ok s => openHandlers open1 is (acc.set i s)

/-- `LCIterator.__init__`, `lchandler.py:530-561`; `files` are the numbers in the names of the files
in the folder, in the order of `os.listdir`, and `attrs` the attributes of the lightcones. -/
def openSet [Field K] [LinearOrder K] (open1 : ℕ → Except Err (State K)) (attrs : ℕ → Attrs K) (files : List ℕ)
    (numbers : Numbers) (require : Bool) : Except Err (Iter K) :=
  match numbers with
  | .scalar _ => .error .typeError                                            -- line 537, `len`
  | .all => go files
  | .list l => go l
where
  /-- Lines 537-561. -/
  go (l : List ℕ) : Except Err (Iter K) :=
    match openHandlers open1 l [] with
    | .error e => .error e
    | .ok hs =>
      match iterInit (l.map attrs) require with
      | .error e => .error e
      | .ok c => .ok ⟨l.length, l, hs, c⟩

/-- The calls of `LCIterator` (other than `eval_stat_evo`). -/
inductive Method (K : Type) (α : Type) where
  | ret (p : Name) (useAll : Bool) (inH : Option Bool)
  | make (m : MultiProp K) (o : MakeOpts K)
  | write (ps : List Name) (overwrite : Bool)
  | delete (ps : List Name)
  | range (p : Option Name) (lo hi : Option K) (reset : Bool) (inH : Option Bool)
  | setInH (b : Bool)
  | stat (f : PyDict Name (Arg K) → Except Err α) (kwargs : List Name) (remap : PyDict Name Name)
      (other : PyDict Name (Arg K)) (useAll : Bool) (giveH : Option Bool)

/-- What a call returns for one lightcone. -/
inductive Res (K : Type) (α : Type) where
  | values (vs : Option (List (V K)))
  | nothing
  | stat (v : α)

/-- A call of a method that returns nothing. -/
def quiet (r : State K × Except Err Unit) : State K × Except Err (Res K α) :=
  match r with
  | (s, .error e) => (s, .error e)
  | (s, .ok ()) => (s, .ok .nothing)

/-- `getattr(h,attr)(*args, **kwargs)` for one handler, `lchandler.py:578`. -/
def callOne [DivisionRing K] [LE K] [DecidableLE K] (s : State K) :
    Method K α → State K × Except Err (Res K α)
  | .ret p useAll inH =>
    (s, match Handler.returnProperty s p useAll inH with
      | .error e => .error e
      | .ok v => .ok (.values v))
  | .make m o => quiet (Handler.make s m o)
  | .write ps ov => quiet (Handler.write s ps ov)
  | .delete ps => quiet (Handler.delete s ps)
  | .range p lo hi reset inH => quiet (Handler.setRange s p lo hi reset inH)
  | .setInH b => (Handler.setInH s b, .ok .nothing)
  | .stat f kwargs remap other useAll giveH =>
    (s, match Handler.evalStat s f kwargs remap other useAll giveH with
      | .error e => .error e
      | .ok v => .ok (.stat v))

/-- The loop over the handlers, `lchandler.py:575-579`, for a call `m` that is given the number of the
lightcone; keys of a dictionary are distinct, so that `result[k] = ...` adds an entry. -/
def each {σ β : Type} (m : ℕ → State K → σ → (State K × σ) × Except Err β) :
    PyDict ℕ (State K) → σ → (PyDict ℕ (State K) × σ) × Except Err (PyDict ℕ β)
  | [], o => (([], o), .ok [])
  | (k, s) :: rest, o =>
    match m k s o with
    | ((s', o'), .error e) => (((k, s') :: rest, o'), .error e)
    | ((s', o'), .ok r) =>
      match each m rest o' with
      | ((rest', o2), .error e) => (((k, s') :: rest', o2), .error e)
      | ((rest', o2), .ok rs) => (((k, s') :: rest', o2), .ok ((k, r) :: rs))

/-- A call for all lightcones. -/
def callAll [DivisionRing K] [LE K] [DecidableLE K] (m : Method K α) (hs : PyDict ℕ (State K)) :
    PyDict ℕ (State K) × Except Err (PyDict ℕ (Res K α)) :=
  match each (fun _ s (_ : Unit) => (((callOne s m).1, ()), (callOne s m).2)) hs () with
  | ((hs', _), r) => (hs', r)

/-- `eval_stat_evo` for all lightcones: the dictionary `other_kws` is the same object in every call.
`vol` are the volumes of the bins of each lightcone. -/
def evoAll [Field K] [LinearOrder K] (bins : List K) (f : PyDict Name (Arg K) → Except Err α)
    (a : EvoArgs K) (vol : ℕ → Bool → K → K → Except Err K) (hs : PyDict ℕ (State K))
    (other : PyDict Name (Arg K)) :
    (PyDict ℕ (State K) × PyDict Name (Arg K)) × Except Err (PyDict ℕ (List K × List α)) :=
  each (fun k s o => evalStatEvo s bins f a (vol k) o) hs other

/-- The handlers after a sequence of calls; a call that raises is followed by the next call. -/
def session [DivisionRing K] [LE K] [DecidableLE K] (hs : PyDict ℕ (State K)) :
    List (Method K α) → PyDict ℕ (State K)
  | [] => hs
  | m :: ms => session (callAll m hs).1 ms

end Verif.LCI
