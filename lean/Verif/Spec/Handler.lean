import Verif.Model.Handler

/-!
# Vocabulary for statements about handlers

None of this refers to how the handler stores or caches values.
-/

namespace Verif.Handler.Spec

variable {K : Type}

/-- A file as `SimCatalogs.format` or the lightcone maker write it: unique names, a mass
property, and every property (everything but the mass-cut table) has its attributes and
one value per object. -/
structure WF {K : Type} (file : PyDict Name (Dataset K)) (n : ℕ) : Prop where
  nodup : file.keys.Nodup
  mass : ∃ m, file.get? "mass" = some m ∧ m.vals.length = n
  lengths : ∀ p d, file.get? p = some d → p ≠ "mass_cuts" → d.vals.length = n
  units : ∀ p d, (p, d) ∈ file → p ≠ "mass_cuts" → d.units.isSome
  hdep : ∀ p d, (p, d) ∈ file → p ≠ "mass_cuts" → d.hdep.isSome

/-- The states a handler can be in: opened on a well-formed file, given any further scalars
(as snapshot and lightcone handlers are: redshift, box edge, ...), then used. -/
def Reachable [DivisionRing K] [LE K] [DecidableLE K] (s : State K) : Prop :=
  ∃ (file : PyDict Name (Dataset K)) (n : ℕ) (h : K) (inH : Bool) (s0 : State K)
    (extra : PyDict Name K) (ops : List (Op K)),
    WF file n ∧ init file h inH = .ok s0 ∧ s = run { s0 with extra := extra } ops

/-- A stored value as the user sees it: as stored in h units, multiplied by `h^e` otherwise. -/
def seen [DivisionRing K] (h : K) (e : ℤ) (inH : Bool) (v : V K) : V K :=
  if inH then v else v.map (fun x => x * h ^ e)

/-- The objects selected: all of them, or the active ones. -/
def selection (s : State K) (useAll : Bool) : List ℕ :=
  if useAll then List.range s.nAll else s.active

/-- Does the call create, write or delete the property `p`? (Loading, unloading, reading,
and restricting the selection do not.) -/
def changes (p : Name) : Op K → Prop
  | .make m o => p ∈ o.rename.getD m.names
  | .write ps _ => p ∈ ps
  | .delete ps => p ∈ ps
  | _ => False

/-- Calls that are meant to modify the file. -/
def writesFile : Op K → Prop
  | .make _ o => o.writeDisk = true
  | .write _ _ => True
  | .delete _ => True
  | _ => False

/-- One restriction of the selection: a property, bounds (`none` = unbounded) and the units
the bounds are given in. -/
structure Constraint (K : Type) where
  prop : Name
  lo : Option K
  hi : Option K
  inH : Bool

/-- `lo ≤ x ≤ hi`; NaN is never inside. -/
def Inside [LE K] (c : Constraint K) : V K → Prop
  | none => False
  | some x => (∀ l, c.lo = some l → l ≤ x) ∧ (∀ u, c.hi = some u → x ≤ u)

/-- The constraints in force after a history, and the current default units. -/
structure Restrictions (K : Type) where
  inH : Bool
  constraints : List (Constraint K)

/-- A restriction on a property the catalogue has (`known`) replaces the constraints when it
resets and is added to them otherwise; a restriction without a property removes
all constraints; anything else has no effect. -/
def restrict (known : Name → Bool) (r : Restrictions K) : Op K → Restrictions K
  | .range none _ _ _ _ => { r with constraints := [] }
  | .range (some p) lo hi reset inH =>
    if known p then
      { r with constraints := (if reset then [] else r.constraints) ++
                [{ prop := p, lo := lo, hi := hi, inH := inH.getD r.inH }] }
    else r
  | .setInH b => { r with inH := b }
  | _ => r

/-- The restrictions in force after a history of calls on a newly opened catalogue. -/
def restrictions (known : Name → Bool) (inH : Bool) (ops : List (Op K)) : Restrictions K :=
  ops.foldl (restrict known) { inH := inH, constraints := [] }

/-- The property a call restricts, if any. -/
def restricts (p : Name) : Op K → Prop
  | .range (some q) _ _ _ _ => q = p
  | _ => False

/-- A property function that works object by object: given one array per keyword, all of length `n`,
it returns one float array of length `n` per property, whose `j`-th entry is `g k` of
the `j`-th entries of the arguments. -/
def RowWise (m : MultiProp K) (g : ℕ → List (V K) → V K) : Prop :=
  ∀ (args : PyDict Name (Arg K)) (cols : Name → List (V K)) (n : ℕ),
    (∀ kw ∈ m.kwargs, args.get? kw = some (.arr (cols kw)) ∧ (cols kw).length = n) →
    ∃ arrs, m.fn args [] = .ok arrs ∧ arrs.length = m.names.length ∧
      ∀ (k : ℕ) (arr : Arr K), arrs[k]? = some arr → arr.isInt = false ∧ arr.vals.length = n ∧
        ∀ j < n, arr.vals[j]? = some (g k (m.kwargs.map (fun kw => ((cols kw)[j]?).getD none)))

/-- The values of the function have to be converted to h units, and it returns them as a tuple. -/
def TupleToConvert (m : MultiProp K) (hd : PyDict Name ℤ) : Prop :=
  m.tuple = true ∧ m.returnH = false ∧ ∃ name ∈ m.names, ∃ e, hd.get? name = some e ∧ e ≠ 0

end Verif.Handler.Spec
