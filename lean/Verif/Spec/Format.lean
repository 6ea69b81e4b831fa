import Verif.Model.Format

/-!
# Vocabulary for statements about formatted files
-/

namespace Verif.Format.Spec

open Verif.Sim (SnapMeta)

variable {K : Type}

/-- The value of one halo in an array: a number, or a row of numbers. -/
inductive Cell (K : Type) where
  | num (x : K)
  | vec (l : List K)
  deriving DecidableEq

/-- The value of halo `j` in an array. -/
def row (c : Col K) (j : ℕ) : Option (Cell K) :=
  match c with
  | .one v => (v[j]?).map .num
  | .many rows => (rows[j]?).map .vec

/-- The number of halos an array has values for. -/
def size (c : Col K) : ℕ :=
  match c with
  | .one v => v.length
  | .many rows => rows.length

/-- The raw field `key` in the catalogue's units. -/
def converted (cat : Cat K) (raw : Raw K) (key : Name) : Option (Col K) :=
  (raw.fields.get? key).map (fun c =>
    match cat.transform.get? key with
    | some f => f c cat.h
    | none => c)

/-- A property promised by a field table: column `column` of the raw field `key`, which has
`width` columns, is stored under the name and with the units and h dependence in `sub`. -/
structure Entry where
  key : Name
  width : ℕ
  column : ℕ
  sub : Sub

/-- The properties promised by a field table. -/
def Promised (fs : Fields) (e : Entry) : Prop :=
  ∃ subs, (e.key, subs) ∈ fs ∧ e.width = subs.length ∧ subs[e.column]? = some e.sub

/-- The properties to be found in a formatted snapshot: all those of the basic table, and those of
the other table except columns (of a field with several) named `none...`. -/
def Stored (basic other : Fields) (e : Entry) : Prop :=
  Promised basic e ∨
    (Promised other e ∧ ¬ (e.width > 1 ∧ e.sub.name.toList.take 4 = ['n', 'o', 'n', 'e']))

/-- The value of a property for halo `j` of the raw data. -/
def value (cat : Cat K) (raw : Raw K) (e : Entry) (j : ℕ) : Option (Cell K) :=
  match converted cat raw e.key with
  | none => none
  | some c =>
    if e.width > 1 then
      match row c j with
      | some (.vec l) => (l[e.column]?).map .num
      | _ => none
    else row c j

/-- `g` is the raw data `raw`, completely and correctly formatted: there is one order `p` of all the
raw halos such that every property is stored, with its units and h dependence, in that order;
nothing else is stored; the masses decrease; the cut table counts the masses at or above each cut;
and the metadata are those of snapshot `i`. -/
structure Complete [LinearOrder K] (cat : Cat K) (other : Fields) (raw : Raw K) (i : ℕ)
    (g : Group K) : Prop where
  rows : ∃ p : List ℕ, p.Perm (List.range raw.n) ∧
    ∀ e, Stored cat.basic other e → ∃ D, g.data.get? e.sub.name = some D ∧
      D.units = some e.sub.units ∧ D.hdep = some e.sub.hdep ∧ size D.data = raw.n ∧
      ∀ (k j : ℕ), p[k]? = some j →
        ∃ v, row D.data k = some v ∧ value cat raw e j = some v
  only : ∀ name, name ∈ g.data.keys → ∃ e, Stored cat.basic other e ∧ e.sub.name = name
  sorted : ∃ D ms, g.data.get? "mass" = some D ∧ D.data = .one ms ∧ ms.Pairwise (· ≥ ·) ∧
    ∃ t, g.cuts = some t ∧ t.map (·.1) = cat.cuts ∧
      ∀ c ∈ t, c.2 = ms.countP (fun m => decide (c.1 ≤ m))
  info : g.info = some (cat.metas.filter (fun m => decide (m.index = i)))

/-- What `np.argsort` promises: an order of all positions in which the values increase. -/
def IsArgsort [LinearOrder K] (f : List K → List ℕ) : Prop :=
  ∀ ms, (f ms).Perm (List.range ms.length) ∧
    (f ms).Pairwise (fun a b => ∀ x y, ms[a]? = some x → ms[b]? = some y → x ≤ y)

/-- The group of snapshot `i` on the disk. -/
def groupOf (d : Disk K) (i : ℕ) : Option (Group K) :=
  match d.file with
  | none => none
  | some f => f.groups.get? i

/-- The metadata table in the file. -/
def metasOf (d : Disk K) : Option (List (SnapMeta K)) := d.file.bind (·.metas)

/-- The number of snapshots given in the file. -/
def numOf (d : Disk K) : Option ℕ := d.file.bind (·.num)

/-- The user has agreed to the run: raw files will not be deleted, or no confirmation is asked, or
the first answer that is `y` or `n` is `y`. -/
def Consents (o : Opts) (answers : List String) : Prop :=
  o.clean = true → o.cleanCheck = true →
    ∃ pre post, answers = pre ++ "y" :: post ∧ "y" ∉ pre ∧ "n" ∉ pre

/-- The run starts a new file: `remake`, or there are no formatted snapshots. -/
def NewFile (o : Opts) (d : Disk K) : Prop := o.remake = true ∨ ∀ i, groupOf d i = none

/-- The run formats snapshot `i`: it was asked for, and it is missing or is to be replaced. -/
def Formats (cat : Cat K) (o : Opts) (d : Disk K) (i : ℕ) : Prop :=
  i ∈ cat.snaps ∧ (NewFile o d ∨ o.overwrite = true ∨ groupOf d i = none)

/-- The extra fields of a run: for a new file all of them or, with `basic`, none; otherwise those
whose first property is already present in one (always the same) of the formatted snapshots. -/
def Uses (cat : Cat K) (o : Opts) (d : Disk K) (other : Fields) : Prop :=
  (NewFile o d ∧ other = if o.basicOnly then [] else merge cat.dm cat.matter) ∨
  (¬ NewFile o d ∧ ∃ i g, groupOf d i = some g ∧ ∀ f, f ∈ other ↔
    f ∈ merge cat.matter cat.dm ∧ ∃ s rest, f.2 = s :: rest ∧ s.name ∈ g.names)

/-- The file's metadata list every formatted snapshot, each snapshot once, by increasing number. -/
def Listed (d : Disk K) : Prop :=
  (∃ i, groupOf d i ≠ none) → ∃ l, metasOf d = some l ∧
    l.Pairwise (fun a b => a.index < b.index) ∧ ∀ i, groupOf d i ≠ none → i ∈ l.map (·.index)

/-- The names a field table puts into the file. -/
def namesOf (skipNone : Bool) (fs : Fields) : List Name :=
  fs.flatMap (fun f => (f.2.map (·.name)).filter (fun n =>
    !(skipNone && decide (f.2.length > 1) && decide (n.toList.take 4 = ['n', 'o', 'n', 'e']))))

/-- Raw data that can be formatted: every field has a value of the right shape for every halo, and
the names to be stored are distinct, include `mass`, and do not include `mass_cuts`. -/
structure Usable (cat : Cat K) (other : Fields) (raw : Raw K) : Prop where
  basic : ∀ f ∈ cat.basic, f.2 ≠ [] ∧ (0 < raw.n → ∃ c, converted cat raw f.1 = some c ∧
    (f.2.length > 1 → ∃ rows, c = .many rows ∧ rows.length = raw.n ∧
      ∀ r ∈ rows, f.2.length ≤ r.length) ∧
    (¬ f.2.length > 1 → ∃ v, c = .one v ∧ v.length = raw.n))
  extra : ∀ f ∈ other, f.2 ≠ [] ∧ (0 < raw.n → ∃ c, converted cat raw f.1 = some c ∧
    size c = raw.n ∧
    (f.2.length > 1 → ∃ rows, c = .many rows ∧ ∀ r ∈ rows, f.2.length ≤ r.length))
  names : (namesOf false cat.basic ++ namesOf true other).Nodup
  cuts : "mass_cuts" ∉ namesOf false cat.basic ++ namesOf true other
  mass : "mass" ∈ namesOf false cat.basic

/-- HDF5 names are unique. -/
def Unique (d : Disk K) : Prop := ∀ f, d.file = some f → f.groups.keys.Nodup

/-- A catalogue as `SimCatalogs.__init__` sets it up once metadata were downloaded: the snapshots
are listed once and have metadata, which are listed by increasing number; `argsort` sorts. -/
structure Sound [LinearOrder K] (cat : Cat K) : Prop where
  snaps : cat.snaps.Nodup
  sorted : cat.metas.Pairwise (fun a b => a.index < b.index)
  listed : ∀ i ∈ cat.snaps, i ∈ cat.metas.map (·.index)
  argsort : IsArgsort cat.argsort

end Verif.Format.Spec
