import Verif.Lemmas.HandlerKept
import Verif.Props.SimAllUnits

set_option linter.unusedSectionVars false

/-!
# C135: properties computed for objects stay with them
-/

namespace Verif.Handler
open Spec

variable {K : Type} [DivisionRing K] [LE K] [DecidableLE K]

theorem step_h (s : State K) (op : Op K) : (step s op).h = s.h := by
  cases op with
  | load ps =>
    exact forEach_preserves loadOne (fun t => t.h = s.h) ps
      (fun t x _ ht => by unfold loadOne; split; split; exact ht; exact ht; exact ht) s rfl
  | unload ps => rfl
  | ret q u i => rfl
  | make m o => exact (SimAll.make_keeps s m o).2.1
  | write ps ov => exact (SimAll.write_keeps ov ps s).2.1
  | delete ps =>
    refine forEach_preserves _ (fun u => u.h = s.h) ps (fun u x _ hu => ?_) s rfl
    unfold deleteOne
    split
    · split
      · exact hu
      · exact hu
    · exact hu
  | range q lo hi r i =>
    obtain ⟨a, c, hac⟩ := setRange_fields s q lo hi r i
    simp only [step, hac]
  | setInH b => rfl

theorem run_h (s : State K) (ops : List (Op K)) : (run s ops).h = s.h := by
  unfold run
  induction ops generalizing s with
  | nil => rfl
  | cons op ops ih => exact (ih _).trans (step_h s op)

/-- **C135 (kept).** A property that a function computes for the selected objects of a handler with any history keeps,
whatever is called afterwards short of replacing it or unloading it before it is written, the value computed for each
object that was selected then; objects that were not have NaN. -/
theorem C135_kept (s : State K) (hr : Reachable s) (m : MultiProp K) (g : ℕ → List (V K) → V K) (o : MakeOpts K)
    (powers : PyDict Name ℤ) (hm : Computes s m g o powers) (col : Name → List (V K))
    (hcol : ∀ kw ∈ m.kwargs, source o kw ≠ "mass_cuts" ∧
      returnProperty s (source o kw) true (some m.giveH) = .ok (some (col kw)))
    (j : ℕ) (orig p : Name) (e : ℤ) (h1 : m.names[j]? = some orig) (h2 : (o.rename.getD m.names)[j]? = some p)
    (h3 : powers.get? orig = some e) (hnew : s.file.get? p = none) :
    (make s m o).2 = .ok () ∧ (∀ q, q ∉ o.rename.getD m.names → ∀ u b, returnProperty (make s m o).1 q u b =
      returnProperty s q u b) ∧
    ∀ ops, Remains p (make s m o).1 ops → ∀ (useAll : Bool) (inH : Option Bool),
      returnProperty (run s (.make m o :: ops)) p useAll inH = .ok (some
        ((selection (run s (.make m o :: ops)) useAll).map (fun k =>
          seen s.h e (inH.getD (run s (.make m o :: ops)).inH)
            (if k ∈ selection s o.useAll then
              stored m.returnH s.h e (g j (m.kwargs.map (fun kw => ((col kw)[k]?).getD none)))
            else none)))) := by
  obtain ⟨s', a1, a2⟩ := C07_rowwise s hr m g hm.rows o hm.memory hm.plain hm.number hm.different hm.noTable hm.free powers
    hm.listed hm.allPowers hm.allUnits hm.noTuple col hcol
  obtain ⟨b0, full, b1, b2, b3⟩ := a2 j orig p e h1 h2 h3
  obtain ⟨-, c1, c2, c3⟩ := C07_values s s' hr m o hm.memory hm.different hm.noTable a1
  have hp : p ≠ "mass_cuts" := fun hc => hm.noTable (hc ▸ List.mem_of_getElem? h2)
  have hs' : s' = step s (.make m o) := by simp [step, a1]
  have hI := reachable_inv hr
  have hI' : Inv s' := by rw [hs']; exact step_inv s _ hI
  obtain ⟨d1, e', arr, d2, d3, -, -, -, d4⟩ := returnProperty_inv s' hI' p true (some true) full b1
  rw [b0] at d2
  cases d2
  have hn : s'.nAll = s.nAll := by
    have := (step_inH_active s (.make m o) (by simp) (by simp)).2.2
    rwa [← hs'] at this
  have hsv : p ∉ s'.saved := by
    intro hc
    have := hI'.savedFile p hc
    rw [c3, hnew] at this
    simp at this
  have hl : s'.loaded.get? p = some arr := by
    unfold held at d3
    split at d3
    · rename_i x hx; rw [hx]; exact d3
    · rw [if_neg hsv] at d3; cases d3
  have hk : Kept p arr e s.h s.nAll s' :=
    ⟨d1, b0, by rw [hs']; exact step_h s _, hn, .inl ⟨hl, by rw [c3, hnew], hsv⟩⟩
  rw [a1]
  refine ⟨rfl, c1, ?_⟩
  intro ops hops useAll inH
  have hrun : run s (.make m o :: ops) = run s' ops := by
    rw [hs']; rfl
  rw [hrun]
  have hk2 := run_kept s' ops hI' hp hops hk
  have hI2 : Inv (run s' ops) := run_inv _ _ hI'
  obtain ⟨out, r1, r2, r3⟩ := returnProperty_ok (run s' ops) hI2 p useAll inH hk2.all hp e hk2.hdep arr hk2.held
  rw [r1]
  congr 2
  apply List.ext_getElem?
  intro i
  rw [r3 i, List.getElem?_map]
  cases hi : (inds (run s' ops) useAll)[i]? with
  | none =>
    have : (selection (run s' ops) useAll)[i]? = none := hi
    rw [this]; rfl
  | some k =>
    have hi' : (selection (run s' ops) useAll)[i]? = some k := hi
    rw [hi']
    have hkn : k < s.nAll := by
      have := inds_bound _ hI2 useAll k (List.mem_of_getElem? hi)
      rwa [hk2.nn] at this
    have hak : arr[k]? = full[k]? := by
      have := d4 k
      simp only [inds, if_true, Option.getD_some, hn, List.getElem?_range hkn, Option.bind_some] at this
      rw [this]
      cases arr[k]? <;> simp [seen]
    simp only [Option.bind_some, Option.map_some]
    rw [hak, b3 k hkn, hk2.hh]
    rfl

end Verif.Handler
