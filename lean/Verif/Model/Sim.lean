import Verif.Model.SnapMeta

/-!
# Model of the lookups of `SimHandler` (`simim/siminterface/simhandler.py`)

Simplification: numbers are exact (the tables are stored with 32-bit floats).
-/

namespace Verif.Sim

variable {K : Type}

/-- Insert a row into a list sorted by redshift. -/
def insertByZ [LinearOrder K] (s : SnapMeta K) : List (SnapMeta K) → List (SnapMeta K)
  | [] => [s]
  | t :: rest => if s.redshift < t.redshift then s :: t :: rest else t :: insertByZ s rest

/-- `np.sort(snap_meta, order='redshift')`, `simhandler.py:224`.  Rows of equal redshift stay in
their order here (numpy compares their other fields). -/
def sortByZ [LinearOrder K] (l : List (SnapMeta K)) : List (SnapMeta K) :=
  l.foldr insertByZ []

/-- The lookup tables built by `SimHandler.__init__`, `simhandler.py:224-227`: the bin edges
`z_bins` and the snapshot number of each bin.  An empty list of snapshots raises `IndexError`. -/
def zTables [LinearOrder K] (l : List (SnapMeta K)) : Except Err (List K × List ℕ) :=
  let s := sortByZ l
  match s.getLast? with
  | none => .error .indexError
  | some r => .ok (s.map (·.zmin) ++ [r.zmax], s.map (·.index))

/-- `np.digitize(z, bins)` (default `right=False`): for non-decreasing bins the number of edges
`≤ z`; for non-increasing ones the number of edges `> z`; other bins raise `ValueError`. -/
def digitize [LinearOrder K] (z : K) (bins : List K) : Except Err ℕ :=
  if bins.Pairwise (· ≤ ·) then .ok (bins.countP (fun e => decide (e ≤ z)))
  else if bins.Pairwise (· ≥ ·) then .ok (bins.countP (fun e => decide (e > z)))
  else .error .valueError

/-- `xs[i]` for a Python list and an integer: negative indices count from the end. -/
def pyIndex {α : Type} (xs : List α) (i : ℤ) : Except Err α :=
  let j := if i < 0 then i + xs.length else i
  if j < 0 then .error .indexError
  else match xs[j.toNat]? with
    | none => .error .indexError
    | some x => .ok x

/-- `z_to_snap`, `simhandler.py:349-368`, on a handler whose file has the metadata `l`. -/
def zToSnap [Field K] [LinearOrder K] (l : List (SnapMeta K)) (z : K) : Except Err ℕ :=
  match zTables l with
  | .error e => .error e
  | .ok (bins, snaps) =>
    if (∃ b ∈ bins.max?, z > b) ∨ z < 0 then .error .valueError        -- lines 363-364
    else
      match digitize z bins with                                       -- line 365
      | .error e => .error e
      | .ok k => pyIndex snaps ((k : ℤ) - 1)                           -- lines 365-366

/-- `extract_snap_meta`, `simhandler.py:329-347`. -/
def extractSnapMeta (l : List (SnapMeta K)) (snap : ℕ) : Except Err (SnapMeta K) :=
  if snap ∈ l.map (·.index) then
    match l.filter (fun s => s.index = snap) with
    | [] => .error .indexError
    | s :: _ => .ok s
  else .error .valueError

/-- `get_mass_index`, `simhandler.py:385-426`, given the snapshot's table of mass cuts
(`min_mass`, `index`). -/
def getMassIndex [Field K] [LinearOrder K] (cuts : List (K × ℕ)) (h : K) (mass : K) (inH : Bool) :
    Except Err ℕ :=
  let massCheck := if inH then mass else mass / h                       -- lines 413-416
  let vals := cuts.map (fun c => c.1 - massCheck)                       -- line 417
  let vals := vals.filter (fun v => decide (v > 0))                     -- line 418
  if vals.length < 1 then .ok 0                                         -- lines 419-420
  else if vals.length = cuts.length then pyIndex (cuts.map (·.2)) (-1)  -- lines 421-422
  else pyIndex (cuts.map (·.2)) vals.length                             -- lines 423-424

end Verif.Sim
