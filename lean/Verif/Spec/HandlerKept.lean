import Verif.Spec.Handler

/-!
# Vocabulary for statements about properties kept in memory
-/

namespace Verif.Handler.Spec

variable {K : Type}

/-- Does the call make the property `p` anew or delete it? -/
def replaces (p : Name) : Op K → Prop
  | .make m o => p ∈ o.rename.getD m.names
  | .delete ps => p ∈ ps
  | _ => False

/-- The property `p` is neither replaced by the calls nor unloaded without having been written. -/
structure Remains [DivisionRing K] [LE K] [DecidableLE K] (p : Name) (s : State K) (ops : List (Op K)) : Prop where
  kept : ∀ op ∈ ops, ¬ replaces p op
  unloaded : ∀ (done todo : List (Op K)) (ps : List Name), ops = done ++ .unload ps :: todo → p ∈ ps →
    p ∈ (run s done).saved

/-- The function of the model `m` computes a number for each object on its own, `g j` for property `j`, and the options
`o` ask for properties that are kept in memory only and are new or may be overwritten. -/
structure Computes [DivisionRing K] (s : State K) (m : MultiProp K) (g : ℕ → List (V K) → V K) (o : MakeOpts K)
    (powers : PyDict Name ℤ) : Prop where
  rows : RowWise m g
  memory : o.writeDisk = false
  plain : o.otherKws = []
  number : (o.rename.getD m.names).length = m.names.length
  different : (o.rename.getD m.names).Nodup
  noTable : "mass_cuts" ∉ o.rename.getD m.names
  free : o.overwrite = true ∨ ∀ name ∈ o.rename.getD m.names, hasProperty s name = false
  listed : m.hdep = some powers
  allPowers : ∀ name ∈ m.names, (powers.get? name).isSome
  allUnits : ∀ name ∈ m.names, (m.units.get? name).isSome
  noTuple : ¬ TupleToConvert m powers

/-- The property whose values the function gets for its argument `kw`. -/
def source (o : MakeOpts K) (kw : Name) : Name := (o.remap.get? kw).getD kw

end Verif.Handler.Spec
