import Verif.Spec.FormatRead

/-!
# Vocabulary for statements about files left by interrupted calls
-/

namespace Verif.Format.Spec

open Verif.Handler (State V Op returnProperty run)
open Verif.Handler.Spec (changes selection)

variable {K : Type}

/-- What is in `g` is part of the raw data `raw`: there is one order `p` of the raw halos such that
every dataset is one of the properties to be found in a formatted snapshot, has a value for every
halo, in that order, and has the right units and h dependence or none yet; the masses decrease, and
if there is a table of mass cuts it has the cuts of the catalogue and the numbers of halos at or above
them. -/
structure PartOf [LinearOrder K] (cat : Cat K) (other : Fields) (raw : Raw K) (g : Group K) (p : List ℕ) : Prop where
  order : p.Perm (List.range raw.n)
  data : ∀ name D, g.data.get? name = some D → name ≠ "mass_cuts" ∧
    ∃ e, Stored cat.basic other e ∧ e.sub.name = name ∧
      (D.units = none ∨ D.units = some e.sub.units) ∧
      (D.hdep = none ∨ D.hdep = some e.sub.hdep) ∧ size D.data = raw.n ∧
      ∀ (k j : ℕ), p[k]? = some j → ∃ v, row D.data k = some v ∧ value cat raw e j = some v
  sorted : ∀ D, g.data.get? "mass" = some D → ∃ ms, D.data = .one ms ∧ ms.Pairwise (· ≥ ·) ∧
    ∀ t, g.cuts = some t → t.map (·.1) = cat.cuts ∧
      ∀ c ∈ t, c.2 = ms.countP (fun m => decide (c.1 ≤ m))

/-- The dataset has both its attributes. -/
def Marked (D : Data K) : Prop := D.units ≠ none ∧ D.hdep ≠ none

/-- The handler `st` shows nothing but the raw data: there is one order `p` of the raw halos such
that every property it has is one to be found in a formatted snapshot and, whatever is done with the
handler that does not change the property itself, row `k` is the raw value of halo `p[k]`, as stored
in h units and multiplied by its power of `h` otherwise. -/
structure ShowsPart [DivisionRing K] [LE K] [DecidableLE K] (cat : Cat K) (other : Fields)
    (raw : Raw K) (h : K) (p : List ℕ) (st : State K) : Prop where
  order : p.Perm (List.range raw.n)
  count : st.nAll = raw.n ∧ st.active = List.range raw.n
  values : ∀ name ∈ st.all, ∃ e, Stored cat.basic other e ∧ e.sub.name = name ∧
    ∀ ops : List (Op K), (∀ op ∈ ops, ¬ changes name op) → ∀ (useAll : Bool) (b : Option Bool),
      ∃ out, returnProperty (run st ops) name useAll b = .ok (some out) ∧
        out.length = (selection (run st ops) useAll).length ∧
        ∀ j k : ℕ, (selection (run st ops) useAll)[j]? = some k →
          ∃ r x, p[k]? = some r ∧ value cat raw e r = some (.num x) ∧
            out[j]? = some (some (if b.getD (run st ops).inH then x else x * h ^ e.sub.hdep))

end Verif.Format.Spec
