import Verif.Lemmas.HandlerMake
import Verif.Spec.HandlerKept
import Verif.Lemmas.Handler2

set_option linter.unusedSectionVars false

/-!
# Properties kept in memory, and on disk once they are written
-/

namespace Verif.Handler
open Spec

variable {K : Type}

/-- The handler has the values `arr` for `p`: in memory, or in the file, or both. -/
structure Kept (p : Name) (arr : List (V K)) (e : ℤ) (h : K) (n : ℕ) (s : State K) : Prop where
  all : p ∈ s.all
  hdep : s.hdep.get? p = some e
  hh : s.h = h
  nn : s.nAll = n
  place : (s.loaded.get? p = some arr ∧ s.file.get? p = none ∧ p ∉ s.saved) ∨
    (p ∈ s.saved ∧ (∃ d, s.file.get? p = some d ∧ d.vals = arr) ∧
      (s.loaded.get? p = none ∨ s.loaded.get? p = some arr))

variable {p : Name} {arr : List (V K)} {e : ℤ} {h : K} {n : ℕ}

theorem Kept.held {s : State K} (H : Kept p arr e h n s) : held s p = some arr := by
  unfold Handler.held
  rcases H.place with ⟨h1, -, -⟩ | ⟨h1, ⟨d, h2, h3⟩, h4 | h4⟩
  · rw [h1]
  · rw [h4]; simp [h1, h2, h3]
  · rw [h4]

theorem loadOne_kept (s : State K) (q : Name) (H : Kept p arr e h n s) : Kept p arr e h n (loadOne s q).1 := by
  unfold loadOne
  split
  · split
    · exact H
    · rename_i hq _ d' hd'
      refine { H with place := ?_ }
      simp only [PyDict.get?_set]
      by_cases hqp : q = p
      · subst hqp
        rcases H.place with ⟨h1, h2, h3⟩ | ⟨h1, ⟨d, h2, h3⟩, h4⟩
        · exact absurd hq h3
        · rw [h2] at hd'; cases hd'
          exact .inr ⟨h1, ⟨_, h2, h3⟩, .inr (by simp [h3])⟩
      · simpa [hqp] using H.place
  · exact H

theorem unload_kept (s : State K) (qs : List Name) (hq : p ∈ qs → p ∈ s.saved) (H : Kept p arr e h n s) :
    Kept p arr e h n (unload s qs) := by
  refine { H with place := ?_ }
  simp only [unload, foldl_erase_get]
  by_cases hm : p ∈ qs
  · rcases H.place with ⟨-, -, h3⟩ | ⟨h1, h2, -⟩
    · exact absurd (hq hm) h3
    · exact .inr ⟨h1, h2, .inl (by simp [hm])⟩
  · simpa [hm] using H.place

theorem storeOne_kept (u : PyDict Name String) (hd : Option (PyDict Name ℤ)) (is : List ℕ) (s : State K) (it : Item K)
    (hne : it.newName ≠ p) (H : Kept p arr e h n s) : Kept p arr e h n (storeOne u hd is s it).1 := by
  have hl : ∀ vals : List (V K), ((s.loaded.set it.newName vals).get? p = some arr ∧ s.file.get? p = none ∧
      p ∉ s.saved) ∨ (p ∈ s.saved ∧ (∃ d, s.file.get? p = some d ∧ d.vals = arr) ∧
      ((s.loaded.set it.newName vals).get? p = none ∨ (s.loaded.set it.newName vals).get? p = some arr)) := by
    intro vals; simpa [hne] using H.place
  unfold storeOne
  split
  · exact H
  · split
    · exact H
    · rename_i vals _
      dsimp only
      split
      · exact { H with place := hl vals }
      · split
        · exact { H with place := hl vals }
        · split
          · exact { H with place := hl vals }
          · split
            · exact { H with place := hl vals, hdep := by simpa [hne] using H.hdep }
            · exact { H with place := hl vals, hdep := by simpa [hne] using H.hdep
                             all := by simp [H.all] }

theorem writeOne_kept (ov : Bool) (s : State K) (q : Name) (hI : Inv s) (hm : p ≠ "mass_cuts")
    (H : Kept p arr e h n s) : Kept p arr e h n (writeOne ov s q).1 := by
  by_cases hqp : q = p
  · subst hqp
    obtain ⟨u, hu⟩ := Option.isSome_iff_exists.1 (hI.unitsAll q H.all)
    have hlen : ∀ v, s.loaded.get? q = some v → v.length = s.nAll := fun v hv => hI.loadedLen q v hv hm
    unfold writeOne
    rcases H.place with ⟨h1, h2, h3⟩ | ⟨h1, ⟨d, h2, h3⟩, h4 | h4⟩
    · simp only [h1, h3, decide_false, Bool.false_and, Bool.false_eq_true, if_false, h2, hu, H.hdep]
      refine ⟨H.all, H.hdep, H.hh, H.nn, .inr ⟨by simp, ⟨_, by simp; rfl, rfl⟩, .inr h1⟩⟩
    · simp only [h4]
      exact H
    · simp only [h4, h1, decide_true, Bool.true_and, h2]
      split
      · exact H
      · have hl : d.vals.length = arr.length := by rw [h3]
        simp only [hl, if_true, hu, H.hdep]
        refine ⟨H.all, H.hdep, H.hh, H.nn, .inr ⟨h1, ⟨_, by simp; rfl, rfl⟩, .inr h4⟩⟩
  · have hf : ∀ d' : Dataset K, (s.file.set q d').get? p = s.file.get? p := by
      intro d'; simp [hqp]
    have hpl : ∀ (d' : Dataset K), (s.loaded.get? p = some arr ∧ (s.file.set q d').get? p = none ∧ p ∉ s.saved) ∨
        (p ∈ s.saved ∧ (∃ d, (s.file.set q d').get? p = some d ∧ d.vals = arr) ∧
          (s.loaded.get? p = none ∨ s.loaded.get? p = some arr)) := by
      intro d'
      rw [hf]
      exact H.place
    unfold writeOne
    split
    · exact H
    · split
      · exact H
      · dsimp only
        split
        · exact H
        · split
          · exact { H with place := hpl _ }
          · split
            · exact { H with place := hpl _ }
            · refine { H with place := ?_ }
              dsimp only; split
              · exact hpl _
              · have hpq : p ≠ q := fun h => hqp h.symm
                simpa [hpq] using hpl _

theorem deleteOne_kept (s : State K) (q : Name) (hne : q ≠ p) (H : Kept p arr e h n s) :
    Kept p arr e h n (deleteOne s q).1 := by
  unfold deleteOne
  split
  · split
    · exact H
    · have hf : (s.file.erase q).get? p = s.file.get? p := by simp [hne]
      have hpq : p ≠ q := fun h => hne h.symm
      refine { H with place := ?_, all := ?_, hdep := ?_ }
      · simp [H.all, hpq]
      · simp [hne, H.hdep]
      · dsimp only
        rw [hf, PyDict.mem_keys_iff, hf]
        rcases H.place with ⟨h1, h2, h3⟩ | ⟨h1, ⟨d, h2, h3⟩, h4⟩
        · exact .inl ⟨h1, h2, by simp [h2]⟩
        · exact .inr ⟨by simp [h2], ⟨d, h2, h3⟩, h4⟩
  · exact H

theorem make_kept [DivisionRing K] (s : State K) (m : MultiProp K) (o : MakeOpts K) (hI : Inv s) (hm : p ≠ "mass_cuts")
    (hne : p ∉ o.rename.getD m.names) (H : Kept p arr e h n s) : Kept p arr e h n (make s m o).1 := by
  unfold make
  dsimp only
  split
  · exact H
  · split
    · exact H
    · split
      · exact H
      · split
        · exact H
        · rename_i _ names hnames _ exist _ _ vals _
          rw [← (makeNames_eq m o.rename names hnames).1] at hne
          have h1 := forEach_preserves (storeOne m.units m.hdep (inds s o.useAll)) (fun s => Inv s ∧ Kept p arr e h n s)
            (items m.names names exist vals)
            (fun s x hx hs => ⟨storeOne_inv _ _ _ s x hs.1, storeOne_kept _ _ _ s x
              (fun e => hne (e ▸ items_newName _ _ _ _ x hx)) hs.2⟩) s ⟨hI, H⟩
          split
          · rename_i s1 e hs1; rw [hs1] at h1; exact h1.2
          · rename_i s1 hs1
            rw [hs1] at h1
            split
            · have h2 := forEach_preserves (writeOne o.overwriteDisk) (fun s => Inv s ∧ Kept p arr e h n s) names
                (fun s x hx hs => ⟨writeOne_inv _ s x hs.1, writeOne_kept _ s x hs.1 hm hs.2⟩) s1 h1
              unfold write
              split
              · rename_i s2 e hs2; rw [hs2] at h2; exact h2.2
              · rename_i s2 hs2
                rw [hs2] at h2
                dsimp only
                split
                · exact unload_kept _ _ (fun h => absurd h hne) h2.2
                · exact h2.2
            · exact h1.2

variable [DivisionRing K] [LE K] [DecidableLE K]

theorem step_kept (s : State K) (op : Op K) (hI : Inv s) (hm : p ≠ "mass_cuts") (hop : ¬ replaces p op)
    (hun : ∀ ps, op = .unload ps → p ∈ ps → p ∈ s.saved) (H : Kept p arr e h n s) : Kept p arr e h n (step s op) := by
  cases op with
  | load ps => exact forEach_preserves _ _ ps (fun s x _ hs => loadOne_kept s x hs) s H
  | unload ps => exact unload_kept s ps (hun ps rfl) H
  | ret q u i => exact H
  | make m o => exact make_kept s m o hI hm hop H
  | write ps ov =>
    exact (forEach_preserves (writeOne ov) (fun s => Inv s ∧ Kept p arr e h n s) ps
      (fun s x hx hs => ⟨writeOne_inv _ s x hs.1, writeOne_kept _ s x hs.1 hm hs.2⟩) s ⟨hI, H⟩).2
  | delete ps =>
    exact forEach_preserves _ _ ps (fun s x hx hs => deleteOne_kept s x (fun e => hop (by subst e; exact hx)) hs) s H
  | range q lo hi r i =>
    obtain ⟨a, c, hac⟩ := setRange_fields s q lo hi r i
    simp only [step, hac]
    exact { H with }
  | setInH b => exact { H with }

theorem run_kept (s : State K) (ops : List (Op K)) (hI : Inv s) (hm : p ≠ "mass_cuts") (hops : Remains p s ops)
    (H : Kept p arr e h n s) : Kept p arr e h n (run s ops) := by
  induction ops generalizing s with
  | nil => exact H
  | cons op ops ih =>
    have h1 := step_kept s op hI hm (hops.kept op (by simp)) (fun ps hop hp => by
      subst hop
      exact hops.unloaded [] ops ps rfl hp) H
    refine ih _ (step_inv s op hI) ⟨fun o ho => hops.kept o (by simp [ho]), ?_⟩ h1
    intro done todo ps hd hp
    have := hops.unloaded (op :: done) todo ps (by simp [hd]) hp
    exact this

end Verif.Handler
