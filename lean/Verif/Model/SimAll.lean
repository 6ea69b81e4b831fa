import Verif.Model.Handler
import Mathlib.Data.Int.Notation

/-!
# Model of the operations of `SimHandler` on all snapshots (`simim/siminterface/simhandler.py`)

Simplifications (all definitions below):
* the snapshot list of the file is the list of index and redshift (`snap_meta`); the lookup by
  redshift is in `Verif/Model/Sim.lean`;
* the file is a dictionary from snapshot numbers to groups (the group of snapshot `i` is named
  `Snapshot i`, and `str` gives different texts for different numbers);
* the entries of `extra_props` that are not numbers (`cosmo`) are left out, as are printing and
  warnings, and `writedtype`;
* a handler sees the group as it is in the file at that moment.
-/

namespace Verif.SimAll
open Verif.Handler

variable {K : Type}

/-- A `SimHandler` together with the file it refers to.  `handlers` is `none` while `init_snaps` is
`False`, otherwise the dictionary `snap_handlers`. -/
structure Sim (K : Type) where
  snaps : List (ℕ × K)                       -- snap_meta: index and redshift
  disk : PyDict ℕ (PyDict Name (Dataset K))  -- data.hdf5
  h : K
  boxH : K                                   -- box_edge_h
  inH : Bool                                 -- default_in_h_units
  handlers : Option (PyDict ℕ (State K))     -- snap_handlers

/-- `SnapHandler.set_in_h_units`, `simhandler.py:60-77`; `box_edge_no_h` is `boxH / h` (line 49). -/
def snapSetInH [DivisionRing K] (boxH : K) (s : State K) (b : Bool) : State K :=
  { s with inH := b, extra := s.extra.set "box_edge" (if b then boxH else boxH / s.h) }

/-- `SnapHandler.__init__`, `simhandler.py:25-58`. -/
def snapInit [DivisionRing K] (group : PyDict Name (Dataset K)) (z h boxH : K) (inH : Bool) :
    Except Err (State K) :=
  match init group h inH with
  | .error e => .error e
  | .ok s =>
    let s := snapSetInH boxH s inH                     -- _handlers.py:63
    .ok { s with extra := ((s.extra.set "redshift" z).set "box_edge_h" boxH).set
                   "box_edge_no_h" (boxH / h) }        -- lines 55-58

/-- The part of `initialize_all_snaps` for one snapshot, `simhandler.py:277-282`. -/
def initOne [DivisionRing K] (S : Sim K) (d : PyDict ℕ (State K)) (r : ℕ × K) :
    PyDict ℕ (State K) × Except Err Unit :=
  match S.disk.get? r.1 with
  | none => (d, .error .keyError)
  | some g =>
    match snapInit g r.2 S.h S.boxH S.inH with
    | .error e => (d, .error e)
    | .ok s => (d.set r.1 s, .ok ())

/-- `initialize_all_snaps`, `simhandler.py:261-284`.  If a snapshot cannot be opened, `init_snaps`
keeps its value; handlers that were there before are gone (line 274), but as that can
only be seen with `remake=True`, in which case `handlers` holds the new ones. -/
def initializeAll [DivisionRing K] (S : Sim K) (remake : Bool) : Sim K × Except Err Unit :=
  if S.handlers.isSome && !remake then (S, .error .valueError)        -- lines 271-272
  else
    match forEach (initOne S) [] S.snaps with
    | (d, .ok ()) => ({ S with handlers := some d }, .ok ())
    | (d, .error e) => ({ S with handlers := S.handlers.map (fun _ => d) }, .error e)

/-- `SimHandler.__init__`, `simhandler.py:178-259`, on the contents of a formatted file.  An empty
list of snapshots raises `IndexError` (line 226).  Line 259 calls `initialize_all_snaps`
with a keyword it does not have.  The attributes `keys`, `key_units`, `key_h_dependence`
(lines 246-256) are left out. -/
def openSim (snaps : List (ℕ × K)) (disk : PyDict ℕ (PyDict Name (Dataset K))) (h boxH : K)
    (initSnaps inH : Bool) : Except Err (Sim K) :=
  if snaps.length = 0 then .error .indexError
  else if initSnaps then .error .typeError                             -- line 259
  else .ok ⟨snaps, disk, h, boxH, inH, none⟩

/-- `set_in_h_units`, `simhandler.py:286-306`. -/
def setInH [DivisionRing K] (S : Sim K) (b : Bool) : Sim K :=
  { S with inH := b
           handlers := S.handlers.map (fun d => d.map (fun p => (p.1, snapSetInH S.boxH p.2 b))) }

/-- `extract_snap_meta`, `simhandler.py:329-347`: the first row with that number. -/
def extractMeta (S : Sim K) (i : ℕ) : Except Err (ℕ × K) :=
  match S.snaps.find? (fun r => decide (r.1 = i)) with
  | none => .error .valueError
  | some r => .ok r

/-- `get_snap`, `simhandler.py:428-449`.  Without persistent handlers a new one is made, without
passing on `in_h_units` (line 449). -/
def getSnap [DivisionRing K] (S : Sim K) (i : ℕ) : Except Err (State K) :=
  match extractMeta S i with
  | .error e => .error e
  | .ok r =>
    match S.disk.get? r.1 with
    | none => .error .keyError
    | some g =>
      match S.handlers with
      | some d =>                                                      -- lines 443-444
        match d.get? r.1 with
        | none => .error .keyError
        | some s => .ok { s with file := g }
      | none => snapInit g r.2 S.h S.boxH false                        -- lines 446-449

/-- The simulation after its snapshot `i` was used, leaving handler and group as in `s`.  A handler
that is not persistent is dropped. -/
def putSnap (S : Sim K) (i : ℕ) (s : State K) : Sim K :=
  { S with disk := S.disk.set i s.file, handlers := S.handlers.map (fun d => d.set i s) }

/-- The checks made on the first snapshot only, `simhandler.py:571-583`. -/
def checkFirst (overwrite : Bool) (group : PyDict Name (Dataset K)) : List Name → Except Err Unit
  | [] => .ok ()
  | n :: ns =>
    match group.get? n with
    | none => checkFirst overwrite group ns
    | some d =>
      if !overwrite then .error .valueError
      else if !d.userdefined then .error .valueError
      else checkFirst overwrite group ns

/-- What `make_property` does with the handler of one snapshot, `simhandler.py:557-586`;
`first` says whether it is the first one. -/
def makeSnap [DivisionRing K] (m : MultiProp K) (o : MakeOpts K) (write' first : Bool) (s : State K) :
    State K × Except Err Unit :=
  match make s m { o with writeDisk := false } with                    -- lines 557-562
  | (s1, .error e) => (s1, .error e)
  | (s1, .ok ()) =>
    if !write' then (s1, .ok ())
    else
      match makeNames m o.rename with                                  -- lines 565-572
      | .error e => (s1, .error e)
      | .ok names =>
        match (if first then checkFirst o.overwrite s1.file names else .ok ()) with
        | .error e => (s1, .error e)
        | .ok () =>
          match write s1 names o.overwrite with                        -- line 585
          | (s2, .error e) => (s2, .error e)
          | (s2, .ok ()) => (unload s2 names, .ok ())                  -- line 586

/-- A loop body working on the handler of one snapshot. -/
def onSnap [DivisionRing K] (f : Bool → State K → State K × Except Err Unit) (S : Sim K)
    (x : Bool × ℕ) : Sim K × Except Err Unit :=
  match getSnap S x.2 with
  | .error e => (S, .error e)
  | .ok s => (putSnap S x.2 (f x.1 s).1, (f x.1 s).2)

/-- The snapshots in the order of the loops `for i in range(len(self.snap_meta))`, each with the
value of `i==0`. -/
def loopOver (snaps : List (ℕ × K)) : List (Bool × ℕ) :=
  match snaps with
  | [] => []
  | r :: rs => (true, r.1) :: rs.map (fun r => (false, r.1))

/-- `make_property`, `simhandler.py:504-587`. -/
def makeProperty [DivisionRing K] (S : Sim K) (m : MultiProp K) (o : MakeOpts K) (write' : Bool) :
    Sim K × Except Err Unit :=
  if S.handlers.isNone && !write' then (S, .error .valueError)         -- lines 550-551
  else forEach (onSnap (makeSnap m o write')) S (loopOver S.snaps)

/-- The checks made on the first snapshot only, `simhandler.py:605-612`. -/
def checkDelete (group : PyDict Name (Dataset K)) : List Name → Except Err Unit
  | [] => .ok ()
  | n :: ns =>
    match group.get? n with
    | none => checkDelete group ns
    | some d => if !d.userdefined then .error .valueError else checkDelete group ns

/-- What `delete_property` does with the handler of one snapshot, `simhandler.py:604-614`. -/
def deleteSnap (names : List Name) (first : Bool) (s : State K) : State K × Except Err Unit :=
  match (if first then checkDelete s.file names else .ok ()) with
  | .error e => (s, .error e)
  | .ok () => delete s names

/-- `delete_property`, `simhandler.py:588-614`. -/
def deleteProperty [DivisionRing K] (S : Sim K) (names : List Name) : Sim K × Except Err Unit :=
  forEach (onSnap (deleteSnap names)) S (loopOver S.snaps)

/-- What `set_property_range` does with the handler of one snapshot, `simhandler.py:502`. -/
def rangeSnap [DivisionRing K] [LE K] [DecidableLE K] (p : Option Name) (lo hi : Option K)
    (reset b : Bool) (_ : Bool) (s : State K) : State K × Except Err Unit :=
  setRange s p lo hi reset (some b)

/-- `set_property_range`, `simhandler.py:467-502`. -/
def setPropertyRange [DivisionRing K] [LE K] [DecidableLE K] (S : Sim K) (p : Option Name)
    (lo hi : Option K) (reset : Bool) (inH : Option Bool) : Sim K × Except Err Unit :=
  if S.handlers.isNone then (S, .error .valueError)                    -- lines 497-498
  else forEach (onSnap (rangeSnap p lo hi reset (inH.getD S.inH))) S (loopOver S.snaps)

/-- `xs[i]` for an array: negative indices count from the end. -/
def rowAt {α : Type} (xs : List α) (i : ℤ) : Except Err α :=
  let j := if i < 0 then i + xs.length else i
  if j < 0 then .error .indexError
  else match xs[j.toNat]? with
    | none => .error .indexError
    | some x => .ok x

/-- The loop of `snap_stat`, `simhandler.py:662-670`: value and redshift of each position. -/
def statLoop [DivisionRing K] {α : Type} (S : Sim K) (f : PyDict Name (Arg K) → Except Err α)
    (kwargs : List Name) (remap : PyDict Name Name) (other : PyDict Name (Arg K))
    (useAll giveH : Bool) : List ℤ → Except Err (List (α × K))
  | [] => .ok []
  | i :: is =>
    match rowAt S.snaps i with
    | .error e => .error e
    | .ok r =>
      match getSnap S r.1 with
      | .error e => .error e
      | .ok s =>
        match evalStat s f kwargs remap other useAll (some giveH) with
        | .error e => .error e
        | .ok v =>
          match statLoop S f kwargs remap other useAll giveH is with
          | .error e => .error e
          | .ok out => .ok ((v, r.2) :: out)

/-- `snap_stat`, `simhandler.py:616-672`: the list of values and the list of redshifts. -/
def snapStat [DivisionRing K] {α : Type} (S : Sim K) (f : PyDict Name (Arg K) → Except Err α)
    (kwargs : List Name) (remap : PyDict Name Name) (other : PyDict Name (Arg K))
    (giveH : Option Bool) (useAll : Bool) (snaps : Option (List ℤ)) :
    Except Err (List α × List K) :=
  match statLoop S f kwargs remap other useAll (giveH.getD S.inH)
      (snaps.getD ((List.range S.snaps.length).map Int.ofNat)) with
  | .error e => .error e
  | .ok l => .ok (l.map (·.1), l.map (·.2))

/-- `number_volumes`, `simhandler.py:309-327`. -/
def numberVolumes [DivisionRing K] (S : Sim K) (volume : K) (inH : Option Bool) : K :=
  if inH.getD S.inH then volume / S.boxH ^ 3
  else volume / (S.boxH / S.h) ^ 3

/-- The calls on a simulation that change it (all defined above). -/
inductive SimOp (K : Type) where
  | initAll (remake : Bool)
  | setInH (b : Bool)
  | make (m : MultiProp K) (o : MakeOpts K) (write' : Bool)
  | delete (names : List Name)
  | range (p : Option Name) (lo hi : Option K) (reset : Bool) (inH : Option Bool)

/-- One call of the API of `SimHandler` (`simhandler.py:261-614`). -/
def simStep [DivisionRing K] [LE K] [DecidableLE K] (S : Sim K) : SimOp K → Sim K
  | .initAll remake => (initializeAll S remake).1
  | .setInH b => setInH S b
  | .make m o w => (makeProperty S m o w).1
  | .delete names => (deleteProperty S names).1
  | .range p lo hi reset inH => (setPropertyRange S p lo hi reset inH).1

end Verif.SimAll
