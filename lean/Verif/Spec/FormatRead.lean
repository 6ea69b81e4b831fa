import Verif.Spec.Format
import Verif.Spec.Handler

/-!
# Vocabulary for statements about reading what was formatted
-/

namespace Verif.Format.Spec

open Verif.Handler (State V Op returnProperty run)
open Verif.Handler.Spec (changes selection)

variable {K : Type}

/-- Every property of the raw data is one number per halo. -/
def Numbers (cat : Cat K) (other : Fields) (raw : Raw K) : Prop :=
  ∀ e, Stored cat.basic other e → ∀ j v, value cat raw e j = some v → ∃ x, v = .num x

/-- The handler `st` shows the raw data: there is one order `p` of the raw halos such that, whatever
is done with the handler that does not change the property itself, row `k` of any property is the
raw value of halo `p[k]`, as stored in h units and multiplied by its power of `h` otherwise. -/
structure Shows [DivisionRing K] [LE K] [DecidableLE K] (cat : Cat K) (other : Fields) (raw : Raw K)
    (h : K) (p : List ℕ) (st : State K) : Prop where
  order : p.Perm (List.range raw.n)
  count : st.nAll = raw.n ∧ st.active = List.range raw.n
  names : ∀ name, name ∈ st.all ↔ name ≠ "mass_cuts" ∧
    ∃ e, Stored cat.basic other e ∧ e.sub.name = name
  values : ∀ e, Stored cat.basic other e → e.sub.name ≠ "mass_cuts" →
    ∀ ops : List (Op K), (∀ op ∈ ops, ¬ changes e.sub.name op) → ∀ (useAll : Bool) (b : Option Bool),
      ∃ out, returnProperty (run st ops) e.sub.name useAll b = .ok (some out) ∧
        out.length = (selection (run st ops) useAll).length ∧
        ∀ j k : ℕ, (selection (run st ops) useAll)[j]? = some k →
          ∃ r x, p[k]? = some r ∧ value cat raw e r = some (.num x) ∧
            out[j]? = some (some (if b.getD (run st ops).inH then x else x * h ^ e.sub.hdep))

/-- The raw halo `j` has its value of the property within the bounds (`none` = unbounded), given in
h units or not. -/
def within [DivisionRing K] [LE K] [DecidableLE K] (cat : Cat K) (raw : Raw K) (e : Entry) (h : K)
    (inH : Bool) (lo hi : Option K) (j : ℕ) : Bool :=
  match value cat raw e j with
  | some (.num x) =>
    let y := if inH then x else x * h ^ e.sub.hdep
    lo.all (fun l => decide (l ≤ y)) && hi.all (fun u => decide (y ≤ u))
  | _ => false

end Verif.Format.Spec
