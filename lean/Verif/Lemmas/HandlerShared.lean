import Verif.Lemmas.Handler2
import Verif.Spec.HandlerShared

/-!
# Handlers whose file is changed by others

`Whole` is the invariant of Lemmas/Handler without the demand that what the handler takes to be in the file is there.
-/

set_option linter.unusedSectionVars false

namespace Verif.Handler
open Spec

variable {K : Type}

/-- What holds for every handler, whatever others do to the file. -/
structure Whole (n₀ : ℕ) (k₀ : K) (s : State K) : Prop where
  nn : s.nAll = n₀
  hh : s.h = k₀
  fileLen : ∀ p d, s.file.get? p = some d → p ≠ "mass_cuts" → d.vals.length = s.nAll
  loadedLen : ∀ p v, s.loaded.get? p = some v → p ≠ "mass_cuts" → v.length = s.nAll
  hdepAll : ∀ p ∈ s.all, (s.hdep.get? p).isSome
  unitsAll : ∀ p ∈ s.all, (s.units.get? p).isSome
  sorted : s.active.Pairwise (· < ·)
  bound : ∀ i ∈ s.active, i < s.nAll
  count : s.nActive = s.active.length

variable {n₀ : ℕ} {k₀ : K}

theorem loadOne_whole (s : State K) (p : Name) (h : Whole n₀ k₀ s) : Whole n₀ k₀ (loadOne s p).1 := by
  unfold loadOne
  split
  · split
    · exact h
    · rename_i d hd
      refine { h with loadedLen := ?_ }
      intro q v hv hq
      simp only [PyDict.get?_set] at hv
      by_cases hpq : p = q
      · subst hpq
        simp only [if_true, Option.some.injEq] at hv
        subst hv; exact h.fileLen p d hd hq
      · simp only [hpq, if_false] at hv
        exact h.loadedLen q v hv hq
  · exact h

theorem unload_whole (s : State K) (ps : List Name) (h : Whole n₀ k₀ s) : Whole n₀ k₀ (unload s ps) := by
  refine { h with loadedLen := ?_ }
  intro q v hv hq
  simp only [unload, foldl_erase_get] at hv
  by_cases hm : q ∈ ps
  · simp [hm] at hv
  · simp only [hm, if_false] at hv; exact h.loadedLen q v hv hq

theorem storeOne_whole (u : PyDict Name String) (hd : Option (PyDict Name ℤ)) (is : List ℕ)
    (s : State K) (it : Item K) (h : Whole n₀ k₀ s) : Whole n₀ k₀ (storeOne u hd is s it).1 := by
  have hset : ∀ vals : List (V K), vals.length = s.nAll →
      ∀ q v, (s.loaded.set it.newName vals).get? q = some v → q ≠ "mass_cuts" →
        v.length = s.nAll := by
    intro vals hl q v hv hq
    rw [PyDict.get?_set] at hv
    by_cases hn : it.newName = q
    · simp only [hn, if_true, Option.some.injEq] at hv; subst hv; exact hl
    · simp only [hn, if_false] at hv; exact h.loadedLen q v hv hq
  have hdset : ∀ (e : ℤ), ∀ p ∈ s.all, ((s.hdep.set it.newName e).get? p).isSome := by
    intro e p hp
    rw [PyDict.get?_set]; split
    · rfl
    · exact h.hdepAll p hp
  have huset : ∀ (e : String), ∀ p ∈ s.all, ((s.units.set it.newName e).get? p).isSome := by
    intro e p hp
    rw [PyDict.get?_set]; split
    · rfl
    · exact h.unitsAll p hp
  unfold storeOne
  split
  · exact h
  · split
    · exact h
    · rename_i vals hsc
      have hl : vals.length = s.nAll := by
        rw [scatter_length _ _ _ _ hsc]; simp
      dsimp only
      split
      · exact { h with loadedLen := hset vals hl }
      · rename_i uu _
        split
        · exact { h with loadedLen := hset vals hl, unitsAll := huset uu }
        · split
          · exact { h with loadedLen := hset vals hl, unitsAll := huset uu }
          · rename_i e _
            split
            · exact { h with loadedLen := hset vals hl, hdepAll := hdset e, unitsAll := huset uu }
            · refine { h with loadedLen := hset vals hl, hdepAll := ?_, unitsAll := ?_ }
              · intro p hp
                simp only [List.mem_append, List.mem_singleton] at hp
                rcases hp with hp | hp
                · exact hdset e p hp
                · subst hp; simp
              · intro p hp
                simp only [List.mem_append, List.mem_singleton] at hp
                rcases hp with hp | hp
                · exact huset uu p hp
                · subst hp; simp

theorem file_set_whole (s : State K) (p : Name) (d : Dataset K) (h : Whole n₀ k₀ s)
    (hl : p ≠ "mass_cuts" → d.vals.length = s.nAll) : Whole n₀ k₀ { s with file := s.file.set p d } := by
  refine { h with fileLen := ?_ }
  · intro q d' hd' hq
    simp only [PyDict.get?_set] at hd'
    by_cases hpq : p = q
    · simp only [hpq, if_true, Option.some.injEq] at hd'
      subst hd'; subst hpq; exact hl hq
    · simp only [hpq, if_false] at hd'; exact h.fileLen q d' hd' hq

theorem writeOne_whole (ov : Bool) (s : State K) (p : Name) (h : Whole n₀ k₀ s) :
    Whole n₀ k₀ (writeOne ov s p).1 := by
  unfold writeOne
  split
  · exact h
  · rename_i vals hv
    split
    · exact h
    · dsimp only
      split
      · exact h
      · rename_i d0 hd0
        have hd0l : p ≠ "mass_cuts" → d0.vals.length = s.nAll := by
          intro hp
          have hvl := h.loadedLen p vals hv hp
          split at hd0
          · cases hd0; exact hvl
          · split at hd0
            · cases hd0; exact hvl
            · simp at hd0
        split
        · exact file_set_whole s p d0 h hd0l
        · rename_i u hu
          split
          · exact file_set_whole s p _ h hd0l
          · rename_i e he
            have hi := file_set_whole s p { d0 with units := some u, hdep := some e, userdefined := true } h hd0l
            exact { hi with }

theorem deleteOne_whole (s : State K) (p : Name) (h : Whole n₀ k₀ s) : Whole n₀ k₀ (deleteOne s p).1 := by
  unfold deleteOne
  split
  · split
    · exact h
    · refine { h with fileLen := ?_, hdepAll := ?_, unitsAll := ?_ }
      · intro q d hd hq
        simp only [PyDict.get?_erase] at hd
        split at hd
        · simp at hd
        · exact h.fileLen q d hd hq
      · intro q hq
        simp only [List.mem_filter, decide_eq_true_eq] at hq
        rw [PyDict.get?_erase, if_neg (fun e => hq.2 e.symm)]
        exact h.hdepAll q hq.1
      · intro q hq
        simp only [List.mem_filter, decide_eq_true_eq] at hq
        rw [PyDict.get?_erase, if_neg (fun e => hq.2 e.symm)]
        exact h.unitsAll q hq.1
  · exact h

theorem make_whole [DivisionRing K] (s : State K) (m : MultiProp K) (o : MakeOpts K) (h : Whole n₀ k₀ s) :
    Whole n₀ k₀ (make s m o).1 := by
  unfold make
  dsimp only
  split
  · exact h
  · split
    · exact h
    · split
      · exact h
      · split
        · exact h
        · rename_i _ names _ _ exist _ _ vals _
          have h1 := forEach_preserves (storeOne m.units m.hdep (inds s o.useAll)) (Whole n₀ k₀)
            (items m.names names exist vals) (fun s x _ hs => storeOne_whole _ _ _ s x hs) s h
          split
          · rename_i s1 e hs1; rw [hs1] at h1; exact h1
          · rename_i s1 hs1
            rw [hs1] at h1
            split
            · have h2 := forEach_preserves (writeOne o.overwriteDisk) (Whole n₀ k₀) names
                (fun s x _ hs => writeOne_whole _ s x hs) s1 h1
              unfold write
              split
              · rename_i s2 e hs2; rw [hs2] at h2; exact h2
              · rename_i s2 hs2
                rw [hs2] at h2
                dsimp only
                split
                · exact unload_whole _ _ h2
                · exact h2
            · exact h1

theorem setRange_whole [DivisionRing K] [LE K] [DecidableLE K] (s : State K) (p : Option Name)
    (lo hi : Option K) (reset : Bool) (inH : Option Bool) (h : Whole n₀ k₀ s) :
    Whole n₀ k₀ (setRange s p lo hi reset inH).1 := by
  unfold setRange
  split
  · refine { h with sorted := List.pairwise_lt_range, bound := by simp, count := by simp }
  · rename_i p
    split
    · exact h
    · exact h
    · rename_i vals hv
      dsimp only
      have hsort : (nonzeroRange lo hi vals).Pairwise (· < ·) :=
        List.Pairwise.filter _ List.pairwise_lt_range
      have hlen : vals.length = s.nAll := by
        unfold returnProperty at hv
        dsimp only at hv
        split at hv
        · split at hv
          · simp at hv
          · split at hv
            · split at hv
              · simp at hv
              · rename_i vs hg
                simp only [Except.ok.injEq, Option.some.injEq] at hv
                rw [← hv, scaleH_length, (gather_inv _ _ _ hg).2.1]; simp [inds]
            · split at hv
              · split at hv
                · simp at hv
                · split at hv
                  · simp at hv
                  · rename_i vs hg
                    simp only [Except.ok.injEq, Option.some.injEq] at hv
                    rw [← hv, scaleH_length, (gather_inv _ _ _ hg).2.1]; simp [inds]
              · simp at hv
        · simp at hv
      have hb : ∀ i ∈ nonzeroRange lo hi vals, i < s.nAll := by
        intro i hi'
        simp only [nonzeroRange, List.mem_filter, List.mem_range] at hi'
        omega
      refine { h with sorted := ?_, bound := ?_, count := rfl }
      · dsimp only; split
        · exact hsort
        · exact List.Pairwise.filter _ hsort
      · dsimp only; split
        · exact hb
        · intro i hi'; exact hb i (List.mem_filter.1 hi').1

theorem step_whole [DivisionRing K] [LE K] [DecidableLE K] (s : State K) (op : Op K) (h : Whole n₀ k₀ s) :
    Whole n₀ k₀ (step s op) := by
  cases op with
  | load ps => exact forEach_preserves _ (Whole n₀ k₀) ps (fun s x _ hs => loadOne_whole s x hs) s h
  | unload ps => exact unload_whole s ps h
  | ret p u i => exact h
  | make m o => exact make_whole s m o h
  | write ps ov => exact forEach_preserves _ (Whole n₀ k₀) ps (fun s x _ hs => writeOne_whole ov s x hs) s h
  | delete ps => exact forEach_preserves _ (Whole n₀ k₀) ps (fun s x _ hs => deleteOne_whole s x hs) s h
  | range p lo hi r i => exact setRange_whole s p lo hi r i h
  | setInH b => exact { h with }



/-! ### Reading -/

/-- The handler, if it knew what is in the file. -/
def live (s : State K) : State K := { s with saved := s.saved.filter fun p => (s.file.get? p).isSome }

theorem live_inv {s : State K} (h : Whole n₀ k₀ s) : Inv (live s) where
  savedFile := by
    intro p hp
    exact (List.mem_filter.1 hp).2
  fileLen := h.fileLen
  loadedLen := h.loadedLen
  hdepAll := h.hdepAll
  unitsAll := h.unitsAll
  sorted := h.sorted
  bound := h.bound
  count := h.count

theorem read_live [DivisionRing K] (s : State K) (p : Name) (u : Bool) (i : Option Bool)
    (hp : (s.loaded.get? p).isSome ∨ (s.file.get? p).isSome) :
    returnProperty (live s) p u i = returnProperty s p u i := by
  have h1 : (live s).loaded = s.loaded := rfl
  unfold returnProperty live inds
  dsimp only
  cases hl : s.loaded.get? p with
  | some a => rfl
  | none =>
    rw [hl] at hp
    have hf : (s.file.get? p).isSome = true := by simpa using hp
    have hm : (p ∈ s.saved.filter fun p => (s.file.get? p).isSome) ↔ p ∈ s.saved := by
      simp [List.mem_filter, hf]
    simp only [hm]

theorem read_has [DivisionRing K] (s : State K) (p : Name) (u : Bool) (i : Option Bool) (out : List (V K))
    (h : returnProperty s p u i = .ok (some out)) : (s.loaded.get? p).isSome ∨ (s.file.get? p).isSome := by
  by_contra hc
  simp only [not_or, Bool.not_eq_true, Option.isSome_eq_false_iff, Option.isNone_iff_eq_none] at hc
  obtain ⟨h1, h2⟩ := hc
  unfold returnProperty at h
  dsimp only at h
  rw [h1, h2] at h
  split at h
  · split at h
    · simp at h
    · dsimp only at h
      split at h <;> simp at h
  · simp at h

/-! ### Handlers whose view of the file differs -/

/-- The two handlers agree but for the file and what they take to be in it, and there they agree on the
properties in `N`. -/
structure Alike (N : Name → Prop) (s t : State K) : Prop where
  file : ∀ p, N p → s.file.get? p = t.file.get? p
  saved : ∀ p, N p → (p ∈ s.saved ↔ p ∈ t.saved)
  rest : t = { s with file := t.file, saved := t.saved }

variable {N : Name → Prop}

theorem Alike.destruct {s t : State K} (H : Alike N s t) : ∃ f v, t = { s with file := f, saved := v } ∧
    (∀ p, N p → s.file.get? p = f.get? p) ∧ (∀ p, N p → (p ∈ s.saved ↔ p ∈ v)) :=
  ⟨t.file, t.saved, H.rest, H.file, H.saved⟩

theorem Alike.mk' {s : State K} (f : PyDict Name (Dataset K)) (v : List Name)
    (hf : ∀ p, N p → s.file.get? p = f.get? p) (hv : ∀ p, N p → (p ∈ s.saved ↔ p ∈ v)) :
    Alike N s { s with file := f, saved := v } := ⟨hf, hv, rfl⟩

theorem loadOne_alike (s t : State K) (p : Name) (hp : N p) (H : Alike N s t) :
    Alike N (loadOne s p).1 (loadOne t p).1 ∧ (loadOne s p).2 = (loadOne t p).2 := by
  obtain ⟨f, v, rfl, hf, hv⟩ := H.destruct
  unfold loadOne
  dsimp only
  by_cases hs : p ∈ s.saved
  · rw [if_pos hs, if_pos ((hv p hp).1 hs), ← hf p hp]
    cases s.file.get? p with
    | none => exact ⟨H, rfl⟩
    | some d => exact ⟨⟨hf, hv, rfl⟩, rfl⟩
  · rw [if_neg hs, if_neg (fun h => hs ((hv p hp).2 h))]
    exact ⟨H, rfl⟩

theorem forEach_alike {ι : Type} (body : State K → ι → State K × Except Err Unit) (xs : List ι)
    (hb : ∀ s t x, x ∈ xs → Alike N s t →
      Alike N (body s x).1 (body t x).1 ∧ (body s x).2 = (body t x).2) (s t : State K) (H : Alike N s t) :
    Alike N (forEach body s xs).1 (forEach body t xs).1 ∧ (forEach body s xs).2 = (forEach body t xs).2 := by
  induction xs generalizing s t with
  | nil => exact ⟨H, rfl⟩
  | cons x xs ih =>
    obtain ⟨h1, h2⟩ := hb s t x (by simp) H
    unfold forEach
    rcases hs : body s x with ⟨s', es⟩
    rcases ht : body t x with ⟨t', et⟩
    rw [hs, ht] at h1 h2
    simp only at h1 h2
    subst h2
    cases es with
    | error e => exact ⟨h1, rfl⟩
    | ok u => exact ih (fun s t y hy => hb s t y (by simp [hy])) s' t' h1

theorem unload_alike (s t : State K) (ps : List Name) (H : Alike N s t) : Alike N (unload s ps) (unload t ps) := by
  obtain ⟨f, v, rfl, hf, hv⟩ := H.destruct
  exact ⟨hf, hv, rfl⟩

theorem read_alike [DivisionRing K] (s t : State K) (p : Name) (hp : N p) (u : Bool) (i : Option Bool) (H : Alike N s t) :
    returnProperty s p u i = returnProperty t p u i := by
  obtain ⟨f, v, rfl, hf, hv⟩ := H.destruct
  unfold returnProperty inds
  dsimp only
  simp only [hf p hp, hv p hp]

theorem collectArgs_alike [DivisionRing K] (s t : State K) (remap : PyDict Name Name) (u g : Bool) (kws : List Name)
    (hk : ∀ kw ∈ kws, N ((remap.get? kw).getD kw)) (H : Alike N s t) (acc : PyDict Name (Arg K)) :
    collectArgs s remap u g acc kws = collectArgs t remap u g acc kws := by
  induction kws generalizing acc with
  | nil => rfl
  | cons kw kws ih =>
    have ih' := ih (fun k hk' => hk k (by simp [hk']))
    have he : t.extra = s.extra := by rw [H.rest]
    have ha : hasProperty t ((remap.get? kw).getD kw) = hasProperty s ((remap.get? kw).getD kw) := by rw [H.rest]; rfl
    unfold collectArgs
    dsimp only
    rw [ha, he, ← read_alike s t _ (hk kw (by simp)) u (some g) H]
    split
    · split <;> first | rfl | exact ih' _
    · split <;> first | rfl | exact ih' _

theorem storeOne_same (u : PyDict Name String) (hd : Option (PyDict Name ℤ)) (is : List ℕ) (s : State K) (it : Item K)
    (f : PyDict Name (Dataset K)) (v : List Name) :
    storeOne u hd is { s with file := f, saved := v } it =
      ({ (storeOne u hd is s it).1 with file := f, saved := v }, (storeOne u hd is s it).2) ∧
    (storeOne u hd is s it).1.file = s.file ∧ (storeOne u hd is s it).1.saved = s.saved := by
  unfold storeOne
  dsimp only
  split
  · exact ⟨rfl, rfl, rfl⟩
  · cases scatter (List.replicate s.nAll none) is it.arr.vals with
    | error e => exact ⟨rfl, rfl, rfl⟩
    | ok vals =>
      dsimp only
      cases u.get? it.name with
      | none => exact ⟨rfl, rfl, rfl⟩
      | some un =>
        cases hd with
        | none => exact ⟨rfl, rfl, rfl⟩
        | some hd =>
          dsimp only
          cases hd.get? it.name with
          | none => exact ⟨rfl, rfl, rfl⟩
          | some e =>
            dsimp only
            split <;> exact ⟨rfl, rfl, rfl⟩

theorem storeOne_alike (u : PyDict Name String) (hd : Option (PyDict Name ℤ)) (is : List ℕ) (s t : State K) (it : Item K)
    (H : Alike N s t) : Alike N (storeOne u hd is s it).1 (storeOne u hd is t it).1 ∧
      (storeOne u hd is s it).2 = (storeOne u hd is t it).2 := by
  obtain ⟨f, v, rfl, hf, hv⟩ := H.destruct
  obtain ⟨h1, h2, h3⟩ := storeOne_same u hd is s it f v
  rw [h1]
  refine ⟨⟨?_, ?_, rfl⟩, rfl⟩
  · rw [h2]; exact hf
  · rw [h3]; exact hv

theorem writeOne_alike (ov : Bool) (s t : State K) (p : Name) (hp : N p) (H : Alike N s t) :
    Alike N (writeOne ov s p).1 (writeOne ov t p).1 ∧ (writeOne ov s p).2 = (writeOne ov t p).2 := by
  obtain ⟨f, v, rfl, hf, hv⟩ := H.destruct
  have hset : ∀ d : Dataset K, ∀ q, N q → (s.file.set p d).get? q = (f.set p d).get? q := by
    intro d q hq
    simp only [PyDict.get?_set]
    split
    · rfl
    · exact hf q hq
  have hsv : ∀ q, N q → ((q ∈ if p ∈ s.saved then s.saved else s.saved ++ [p]) ↔
      (q ∈ if p ∈ v then v else v ++ [p])) := by
    intro q hq
    simp only [hv p hp]
    split
    · exact hv q hq
    · simp [hv q hq]
  unfold writeOne
  dsimp only
  rw [← hf p hp]
  simp only [hv p hp]
  cases s.loaded.get? p with
  | none => exact ⟨H, rfl⟩
  | some vals =>
    dsimp only
    split
    · exact ⟨H, rfl⟩
    · split
      · exact ⟨H, rfl⟩
      · cases s.units.get? p with
        | none => exact ⟨⟨hset _, hv, rfl⟩, rfl⟩
        | some un =>
          dsimp only
          cases s.hdep.get? p with
          | none => exact ⟨⟨hset _, hv, rfl⟩, rfl⟩
          | some e => 
            dsimp only
            refine ⟨⟨hset _, ?_, rfl⟩, rfl⟩
            intro q hq
            have := hsv q hq
            simp only [hv p hp] at this
            exact this

theorem deleteOne_alike (s t : State K) (p : Name) (hp : N p) (H : Alike N s t) :
    Alike N (deleteOne s p).1 (deleteOne t p).1 ∧ (deleteOne s p).2 = (deleteOne t p).2 := by
  obtain ⟨f, v, rfl, hf, hv⟩ := H.destruct
  unfold deleteOne
  dsimp only
  rw [← hf p hp]
  simp only [hv p hp]
  split
  · cases s.file.get? p with
    | none => exact ⟨H, rfl⟩
    | some d =>
      dsimp only
      have he : ∀ q, N q → (s.file.erase p).get? q = (f.erase p).get? q := by
        intro q hq
        simp only [PyDict.get?_erase]
        split
        · rfl
        · exact hf q hq
      refine ⟨⟨he, ?_, rfl⟩, rfl⟩
      intro q hq
      dsimp only
      rw [PyDict.mem_keys_iff, PyDict.mem_keys_iff, he q hq]
  · exact ⟨H, rfl⟩

theorem checkNames_alike (s t : State K) (ov : Bool) (ns : List Name) (H : Alike N s t) :
    checkNames s ov ns = checkNames t ov ns := by
  have ha : t.all = s.all := by rw [H.rest]
  induction ns with
  | nil => rfl
  | cons n ns ih => unfold checkNames; rw [ih, ha]

theorem write_alike (s t : State K) (ps : List Name) (hp : ∀ p ∈ ps, N p) (ov : Bool) (H : Alike N s t) :
    Alike N (write s ps ov).1 (write t ps ov).1 ∧ (write s ps ov).2 = (write t ps ov).2 :=
  forEach_alike _ ps (fun s t x hx h => writeOne_alike ov s t x (hp x hx) h) s t H

theorem make_alike [DivisionRing K] (s t : State K) (m : MultiProp K) (o : MakeOpts K)
    (hn : ∀ p ∈ o.rename.getD m.names, N p) (hk : ∀ kw ∈ m.kwargs, N ((o.remap.get? kw).getD kw)) (H : Alike N s t) :
    Alike N (make s m o).1 (make t m o).1 ∧ (make s m o).2 = (make t m o).2 := by
  have hi : inds t o.useAll = inds s o.useAll := by rw [H.rest]; rfl
  have hnA : t.nAll = s.nAll := by rw [H.rest]
  have hh : t.h = s.h := by rw [H.rest]
  have hev : evaluateAll m t o.useAll o.remap o.otherKws = evaluateAll m s o.useAll o.remap o.otherKws := by
    unfold evaluateAll
    rw [hh, collectArgs_alike s t o.remap o.useAll m.giveH m.kwargs hk H]
  unfold make
  dsimp only
  rw [hi, hnA, hev]
  split
  · exact ⟨H, rfl⟩
  · rcases hnm : makeNames m o.rename with e | names
    · exact ⟨H, rfl⟩
    · dsimp only
      rw [← (makeNames_eq m o.rename names hnm).1] at hn
      rw [← checkNames_alike s t o.overwrite names H]
      rcases checkNames s o.overwrite names with e | exist
      · exact ⟨H, rfl⟩
      · dsimp only
        rcases evaluateAll m s o.useAll o.remap o.otherKws with e | vals
        · exact ⟨H, rfl⟩
        · dsimp only
          obtain ⟨h1, h2⟩ := forEach_alike (N := N) (storeOne m.units m.hdep (inds s o.useAll))
            (items m.names names exist vals) (fun s t x _ h => storeOne_alike _ _ _ s t x h) s t H
          rcases hs : forEach (storeOne m.units m.hdep (inds s o.useAll)) s (items m.names names exist vals)
            with ⟨s1, es⟩
          rcases ht : forEach (storeOne m.units m.hdep (inds s o.useAll)) t (items m.names names exist vals)
            with ⟨t1, et⟩
          rw [hs, ht] at h1 h2
          simp only at h1 h2
          subst h2
          cases es with
          | error e => exact ⟨h1, rfl⟩
          | ok u =>
            dsimp only
            split
            · obtain ⟨w1, w2⟩ := write_alike s1 t1 names hn o.overwriteDisk h1
              rcases hs' : write s1 names o.overwriteDisk with ⟨s2, es⟩
              rcases ht' : write t1 names o.overwriteDisk with ⟨t2, et⟩
              rw [hs', ht'] at w1 w2
              simp only at w1 w2
              subst w2
              cases es with
              | error e => exact ⟨w1, rfl⟩
              | ok u =>
                dsimp only
                split
                · exact ⟨unload_alike _ _ _ w1, rfl⟩
                · exact ⟨w1, rfl⟩
            · exact ⟨h1, rfl⟩

theorem setRange_alike [DivisionRing K] [LE K] [DecidableLE K] (s t : State K) (p : Option Name)
    (hp : ∀ q, p = some q → N q) (lo hi : Option K) (r : Bool) (i : Option Bool) (H : Alike N s t) :
    Alike N (setRange s p lo hi r i).1 (setRange t p lo hi r i).1 ∧
      (setRange s p lo hi r i).2 = (setRange t p lo hi r i).2 := by
  cases p with
  | none =>
    obtain ⟨f, v, rfl, hf, hv⟩ := H.destruct
    exact ⟨⟨hf, hv, rfl⟩, rfl⟩
  | some q =>
    have hin : t.inH = s.inH := by rw [H.rest]
    unfold setRange
    dsimp only
    rw [hin, ← read_alike s t q (hp q rfl) true (some (i.getD s.inH)) H]
    obtain ⟨f, v, rfl, hf, hv⟩ := H.destruct
    rcases returnProperty s q true (some (i.getD s.inH)) with e | (_ | vals)
    · exact ⟨H, rfl⟩
    · exact ⟨H, rfl⟩
    · exact ⟨⟨hf, hv, rfl⟩, rfl⟩

theorem step_alike [DivisionRing K] [LE K] [DecidableLE K] (s t : State K) (op : Op K)
    (hop : ∀ p, mentions p op → N p) (H : Alike N s t) :
    Alike N (step s op) (step t op) ∧ reply s op = reply t op := by
  cases op with
  | load ps =>
    obtain ⟨h1, h2⟩ := forEach_alike loadOne ps (fun s t x hx h => loadOne_alike s t x (hop x hx) h) s t H
    exact ⟨h1, by simp only [reply, load, h2]⟩
  | unload ps => exact ⟨unload_alike s t ps H, rfl⟩
  | ret q u i => exact ⟨H, read_alike s t q (hop q rfl) u i H⟩
  | make m o =>
    obtain ⟨h1, h2⟩ := make_alike s t m o (fun p hp => hop p (.inl hp)) (fun kw hk => hop _ (.inr ⟨kw, hk, rfl⟩)) H
    exact ⟨h1, by simp only [reply, h2]⟩
  | write ps ov =>
    obtain ⟨h1, h2⟩ := write_alike s t ps hop ov H
    exact ⟨h1, by simp only [reply, h2]⟩
  | delete ps =>
    obtain ⟨h1, h2⟩ := forEach_alike deleteOne ps (fun s t x hx h => deleteOne_alike s t x (hop x hx) h) s t H
    exact ⟨h1, by simp only [reply, delete, h2]⟩
  | range q lo hi r i =>
    obtain ⟨h1, h2⟩ := setRange_alike s t q (fun p hp => hop p hp) lo hi r i H
    exact ⟨h1, by simp only [reply, h2]⟩
  | setInH b =>
    obtain ⟨f, v, rfl, hf, hv⟩ := H.destruct
    exact ⟨⟨hf, hv, rfl⟩, rfl⟩

end Verif.Handler
