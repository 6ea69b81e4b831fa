import Verif.Spec.Handler
import Mathlib.Data.List.Basic

namespace Verif.Handler
open Spec

variable {K : Type}

/-! ### forEach -/

theorem forEach_preserves {σ ι : Type} (body : σ → ι → σ × Except Err Unit) (I : σ → Prop)
    (xs : List ι) (hbody : ∀ s, ∀ x ∈ xs, I s → I (body s x).1) (s : σ) (h : I s) :
    I (forEach body s xs).1 := by
  induction xs generalizing s with
  | nil => exact h
  | cons x xs ih =>
    have hx := hbody s x (by simp) h
    unfold forEach
    generalize body s x = r at hx
    obtain ⟨s', e⟩ := r
    cases e with
    | ok u => exact ih (fun s y hy => hbody s y (by simp [hy])) s' hx
    | error e => exact hx

theorem forEach_ok_cons {σ ι : Type} (body : σ → ι → σ × Except Err Unit) (s s' : σ) (x : ι)
    (xs : List ι) (h : forEach body s (x :: xs) = (s', .ok ())) :
    ∃ s1, body s x = (s1, .ok ()) ∧ forEach body s1 xs = (s', .ok ()) := by
  unfold forEach at h
  split at h
  · rename_i s1 hb; exact ⟨s1, hb, h⟩
  · simp at h

/-! ### gather -/

theorem gather_ok {α : Type} (arr : List α) (is : List ℕ) (h : ∀ i ∈ is, i < arr.length) :
    ∃ vs, gather arr is = .ok vs ∧ vs.length = is.length ∧
      ∀ j : ℕ, vs[j]? = (is[j]?).bind (fun i => arr[i]?) := by
  induction is with
  | nil => exact ⟨[], rfl, rfl, by simp⟩
  | cons i is ih =>
    obtain ⟨vs, h1, h2, h3⟩ := ih (fun j hj => h j (by simp [hj]))
    have hi := h i (by simp)
    refine ⟨arr[i] :: vs, ?_, by simp [h2], ?_⟩
    · simp [gather, h1, List.getElem?_eq_getElem hi]
    · intro j
      cases j with
      | zero => simp [List.getElem?_eq_getElem hi]
      | succ j => simp [h3 j]

theorem gather_inv {α : Type} (arr : List α) (is : List ℕ) (vs : List α)
    (h : gather arr is = .ok vs) : (∀ i ∈ is, i < arr.length) ∧ vs.length = is.length ∧
      ∀ j : ℕ, vs[j]? = (is[j]?).bind (fun i => arr[i]?) := by
  have hb : ∀ i ∈ is, i < arr.length := by
    induction is generalizing vs with
    | nil => simp
    | cons i is ih =>
      unfold gather at h
      split at h
      · simp at h
      · rename_i v hv
        split at h
        · simp at h
        · rename_i vs' hvs
          intro j hj
          rcases List.mem_cons.1 hj with rfl | hj
          · by_contra hc
            rw [List.getElem?_eq_none (by omega)] at hv
            simp at hv
          · exact ih _ hvs j hj
  obtain ⟨vs', h1, h2, h3⟩ := gather_ok arr is hb
  rw [h] at h1
  cases h1
  exact ⟨hb, h2, h3⟩

theorem gather_range {α : Type} (arr : List α) : gather arr (List.range arr.length) = .ok arr := by
  obtain ⟨vs, h1, h2, h3⟩ := gather_ok arr (List.range arr.length) (by simp)
  rw [h1]
  congr 1
  apply List.ext_getElem?
  intro j
  rw [h3 j]
  by_cases hj : j < arr.length
  · simp [hj]
  · simp [hj]

theorem scaleH_length [DivisionRing K] (h : K) (e : ℤ) (vs : List (V K)) :
    (scaleH h e vs).length = vs.length := by
  unfold scaleH; split <;> simp

/-- `scaleH` acts on every entry. -/
theorem scaleH_get [DivisionRing K] (h : K) (e : ℤ) (vs : List (V K)) (j : ℕ) :
    (scaleH h e vs)[j]? = (vs[j]?).map (fun v => v.map (fun x => x * h ^ e)) := by
  unfold scaleH
  split
  · simp
  · rename_i he
    simp only [ne_eq, not_not] at he
    subst he
    simp

/-! ### scatter -/

theorem foldl_set_length {α : Type} (ps : List (ℕ × α)) (arr : List α) :
    (ps.foldl (fun a p => a.set p.1 p.2) arr).length = arr.length := by
  induction ps generalizing arr with
  | nil => rfl
  | cons p ps ih => simp [ih]

theorem foldl_set_get_notin {α : Type} (ps : List (ℕ × α)) (arr : List α) (i : ℕ)
    (h : i ∉ ps.map Prod.fst) :
    (ps.foldl (fun a p => a.set p.1 p.2) arr)[i]? = arr[i]? := by
  induction ps generalizing arr with
  | nil => rfl
  | cons p ps ih =>
    simp only [List.map_cons, List.mem_cons, not_or] at h
    rw [List.foldl_cons, ih _ h.2, List.getElem?_set]
    have hne : ¬ p.1 = i := fun e => h.1 e.symm
    simp [hne]

theorem foldl_set_get {α : Type} (ps : List (ℕ × α)) (arr : List α)
    (hnd : (ps.map Prod.fst).Nodup) (i : ℕ) (v : α) (h : (i, v) ∈ ps) (hi : i < arr.length) :
    (ps.foldl (fun a p => a.set p.1 p.2) arr)[i]? = some v := by
  induction ps generalizing arr with
  | nil => simp at h
  | cons p ps ih =>
    simp only [List.map_cons, List.nodup_cons] at hnd
    rw [List.foldl_cons]
    rcases List.mem_cons.1 h with rfl | h
    · rw [foldl_set_get_notin _ _ _ hnd.1, List.getElem?_set]
      simp [hi]
    · exact ih _ hnd.2 h (by simpa using hi)

theorem scatter_length {α : Type} (arr : List α) (is : List ℕ) (vals out : List α)
    (h : scatter arr is vals = .ok out) : out.length = arr.length := by
  unfold scatter at h
  split at h
  · cases h; exact foldl_set_length _ _
  · split at h
    · cases h
      rename_i v _
      have := foldl_set_length (is.map (fun i => (i, v))) arr
      rw [List.foldl_map] at this
      exact this
    · simp at h

theorem scatter_spec {α : Type} (arr : List α) (is : List ℕ) (vals : List α)
    (hlen : vals.length = is.length) (hnd : is.Nodup) (hb : ∀ i ∈ is, i < arr.length) :
    ∃ out, scatter arr is vals = .ok out ∧ out.length = arr.length ∧
      (∀ (j i : ℕ), is[j]? = some i → out[i]? = vals[j]?) ∧
      (∀ i, i ∉ is → out[i]? = arr[i]?) := by
  have hfst : (is.zip vals).map Prod.fst = is := by
    rw [List.map_fst_zip]; omega
  refine ⟨(is.zip vals).foldl (fun a p => a.set p.1 p.2) arr, by simp [scatter, hlen],
    foldl_set_length _ _, ?_, ?_⟩
  · intro j i hj
    have hjl : j < is.length := by
      by_contra hc; rw [List.getElem?_eq_none (by omega)] at hj; simp at hj
    have hjv : j < vals.length := by omega
    rw [List.getElem?_eq_getElem hjv]
    apply foldl_set_get _ _ (by rw [hfst]; exact hnd)
    · have : (is.zip vals)[j]? = some (i, vals[j]) := by
        rw [List.getElem?_zip_eq_some]
        exact ⟨hj, List.getElem?_eq_getElem hjv⟩
      exact List.mem_of_getElem? this
    · apply hb; exact List.mem_of_getElem? hj
  · intro i hi
    apply foldl_set_get_notin
    rw [hfst]; exact hi

/-! ### Init -/

theorem readAttrs_ok {α : Type} (attr : Dataset K → Option α) (l : PyDict Name (Dataset K))
    (h : ∀ p ∈ l, (attr p.2).isSome) :
    ∃ out, readAttrs attr l = .ok out ∧ ∀ p, out.get? p = (l.get? p).bind attr := by
  induction l with
  | nil => exact ⟨[], rfl, fun _ => rfl⟩
  | cons q l ih =>
    obtain ⟨p, d⟩ := q
    obtain ⟨out, h1, h2⟩ := ih (fun x hx => h x (by simp [hx]))
    obtain ⟨a, ha⟩ := Option.isSome_iff_exists.1 (h (p, d) (by simp))
    simp only at ha
    refine ⟨(p, a) :: out, by simp [readAttrs, ha, h1], ?_⟩
    intro p'
    rw [PyDict.get?_cons, PyDict.get?_cons, h2]
    by_cases hp : p = p' <;> simp [hp, ha]

theorem get?_mem (d : PyDict Name (Dataset K)) (p : Name) (v : Dataset K)
    (h : d.get? p = some v) : (p, v) ∈ d := by
  induction d with
  | nil => simp at h
  | cons q d ih =>
    obtain ⟨k, w⟩ := q
    rw [PyDict.get?_cons] at h
    by_cases hk : k = p
    · simp [hk] at h; simp [hk, h]
    · simp [hk] at h; simp [ih h]

theorem get?_props (file : PyDict Name (Dataset K)) (p : Name) :
    PyDict.get? (file.filter (fun q => decide (q.1 ≠ "mass_cuts"))) p
      = if p = "mass_cuts" then none else file.get? p := by
  have := PyDict.get?_erase file "mass_cuts" p
  unfold PyDict.erase at this
  rw [this]
  by_cases h : p = "mass_cuts"
  · simp [h]
  · have h' : ¬ "mass_cuts" = p := fun e => h e.symm
    simp [h, h']

/-- The invariant of all reachable handler states. -/
structure Inv (s : State K) : Prop where
  savedFile : ∀ p ∈ s.saved, (s.file.get? p).isSome
  fileLen : ∀ p d, s.file.get? p = some d → p ≠ "mass_cuts" → d.vals.length = s.nAll
  loadedLen : ∀ p v, s.loaded.get? p = some v → p ≠ "mass_cuts" → v.length = s.nAll
  hdepAll : ∀ p ∈ s.all, (s.hdep.get? p).isSome
  unitsAll : ∀ p ∈ s.all, (s.units.get? p).isSome
  sorted : s.active.Pairwise (· < ·)
  bound : ∀ i ∈ s.active, i < s.nAll
  count : s.nActive = s.active.length

/-- What `init` produces on a well-formed file. -/
theorem init_ok (file : PyDict Name (Dataset K)) (n : ℕ) (hwf : WF file n) (h : K) (inH : Bool) :
    ∃ s, init file h inH = .ok s ∧ s.file = file ∧ s.nAll = n ∧ s.h = h ∧ s.inH = inH ∧
      s.loaded = [] ∧ s.generated = [] ∧ s.active = List.range n ∧ s.nActive = n ∧
      (∀ p, p ∈ s.all ↔ (p ≠ "mass_cuts" ∧ (file.get? p).isSome)) ∧
      (∀ p, p ∈ s.saved ↔ (p ≠ "mass_cuts" ∧ (file.get? p).isSome)) ∧
      (∀ p, p ≠ "mass_cuts" → s.hdep.get? p = (file.get? p).bind Dataset.hdep) ∧
      (∀ p, p ≠ "mass_cuts" → s.units.get? p = (file.get? p).bind Dataset.units) ∧
      s.all = s.saved := by
  obtain ⟨m, hm, hml⟩ := hwf.mass
  obtain ⟨u, hu, hu'⟩ := readAttrs_ok Dataset.units
    (file.filter (fun q => decide (q.1 ≠ "mass_cuts")))
    (by intro q hq; simp only [List.mem_filter, decide_eq_true_eq] at hq
        exact hwf.units q.1 q.2 hq.1 hq.2)
  obtain ⟨e, he, he'⟩ := readAttrs_ok Dataset.hdep
    (file.filter (fun q => decide (q.1 ≠ "mass_cuts")))
    (by intro q hq; simp only [List.mem_filter, decide_eq_true_eq] at hq
        exact hwf.hdep q.1 q.2 hq.1 hq.2)
  have hk : ∀ p, p ∈ (file.filter (fun q => decide (q.1 ≠ "mass_cuts"))).map (·.1) ↔
      (p ≠ "mass_cuts" ∧ (file.get? p).isSome) := by
    intro p
    have := PyDict.mem_keys_iff (file.filter (fun q => decide (q.1 ≠ "mass_cuts"))) p
    rw [get?_props] at this
    unfold PyDict.keys at this
    rw [this]
    by_cases hp : p = "mass_cuts" <;> simp [hp]
  refine ⟨_, by simp only [init, hu, he, hm]; rfl, rfl, hml, rfl, rfl, rfl, rfl, by simp [hml],
    by simp [hml], hk, hk, ?_, ?_, rfl⟩
  · intro p hp; rw [he' p, get?_props]; simp [hp]
  · intro p hp; rw [hu' p, get?_props]; simp [hp]

theorem inv_init (file : PyDict Name (Dataset K)) (n : ℕ) (hwf : WF file n) (h : K) (inH : Bool)
    (s : State K) (hs : init file h inH = .ok s) : Inv s := by
  obtain ⟨s', hs', hf, hn, -, -, hl, -, ha, hna, hall, hsv, hhd, hun, -⟩ :=
    init_ok file n hwf h inH
  rw [hs] at hs'; cases hs'
  refine ⟨?_, ?_, ?_, ?_, ?_, ?_, ?_, ?_⟩
  · intro p hp; rw [hf]; exact ((hsv p).1 hp).2
  · intro p d hd hp; rw [hf] at hd; rw [hn]; exact hwf.lengths p d hd hp
  · intro p v hv; rw [hl] at hv; simp at hv
  · intro p hp
    obtain ⟨h1, h2⟩ := (hall p).1 hp
    obtain ⟨d, hd⟩ := Option.isSome_iff_exists.1 h2
    rw [hhd p h1, hd]
    exact hwf.hdep p d (get?_mem _ _ _ hd) h1
  · intro p hp
    obtain ⟨h1, h2⟩ := (hall p).1 hp
    obtain ⟨d, hd⟩ := Option.isSome_iff_exists.1 h2
    rw [hun p h1, hd]
    exact hwf.units p d (get?_mem _ _ _ hd) h1
  · rw [ha]; exact List.pairwise_lt_range
  · rw [ha, hn]; simp
  · rw [ha, hna]; simp

/-! ### Preservation -/

theorem loadOne_inv (s : State K) (p : Name) (h : Inv s) : Inv (loadOne s p).1 := by
  unfold loadOne
  split
  · split
    · exact h
    · rename_i d hd
      refine { h with loadedLen := ?_ }
      intro q v hv hq
      simp only [PyDict.get?_set] at hv
      by_cases hpq : p = q
      · subst hpq
        simp only [if_true, Option.some.injEq] at hv
        subst hv; exact h.fileLen p d hd hq
      · simp only [hpq, if_false] at hv
        exact h.loadedLen q v hv hq
  · exact h

theorem foldl_erase_get {α : Type _} (ps : List Name) (d : PyDict Name α) (q : Name) :
    (ps.foldl (fun d p => d.erase p) d).get? q = if q ∈ ps then none else d.get? q := by
  induction ps generalizing d with
  | nil => simp
  | cons p ps ih =>
    rw [List.foldl_cons, ih, PyDict.get?_erase]
    by_cases h1 : q ∈ ps
    · simp [h1]
    · by_cases h2 : p = q
      · simp [h2]
      · have h3 : ¬ q = p := fun e => h2 e.symm
        simp [h1, h2, h3]

theorem unload_inv (s : State K) (ps : List Name) (h : Inv s) : Inv (unload s ps) := by
  refine { h with loadedLen := ?_ }
  intro q v hv hq
  simp only [unload, foldl_erase_get] at hv
  by_cases hm : q ∈ ps
  · simp [hm] at hv
  · simp only [hm, if_false] at hv; exact h.loadedLen q v hv hq

theorem storeOne_inv (u : PyDict Name String) (hd : Option (PyDict Name ℤ)) (is : List ℕ)
    (s : State K) (it : Item K) (h : Inv s) : Inv (storeOne u hd is s it).1 := by
  have hset : ∀ vals : List (V K), vals.length = s.nAll →
      ∀ q v, (s.loaded.set it.newName vals).get? q = some v → q ≠ "mass_cuts" →
        v.length = s.nAll := by
    intro vals hl q v hv hq
    rw [PyDict.get?_set] at hv
    by_cases hn : it.newName = q
    · simp only [hn, if_true, Option.some.injEq] at hv; subst hv; exact hl
    · simp only [hn, if_false] at hv; exact h.loadedLen q v hv hq
  have hdset : ∀ (e : ℤ), ∀ p ∈ s.all, ((s.hdep.set it.newName e).get? p).isSome := by
    intro e p hp
    rw [PyDict.get?_set]; split
    · rfl
    · exact h.hdepAll p hp
  have huset : ∀ (e : String), ∀ p ∈ s.all, ((s.units.set it.newName e).get? p).isSome := by
    intro e p hp
    rw [PyDict.get?_set]; split
    · rfl
    · exact h.unitsAll p hp
  unfold storeOne
  split
  · exact h
  · split
    · exact h
    · rename_i vals hsc
      have hl : vals.length = s.nAll := by
        rw [scatter_length _ _ _ _ hsc]; simp
      dsimp only
      split
      · exact { h with loadedLen := hset vals hl }
      · rename_i uu _
        split
        · exact { h with loadedLen := hset vals hl, unitsAll := huset uu }
        · split
          · exact { h with loadedLen := hset vals hl, unitsAll := huset uu }
          · rename_i e _
            split
            · exact { h with loadedLen := hset vals hl, hdepAll := hdset e, unitsAll := huset uu }
            · refine { h with loadedLen := hset vals hl, hdepAll := ?_, unitsAll := ?_ }
              · intro p hp
                simp only [List.mem_append, List.mem_singleton] at hp
                rcases hp with hp | hp
                · exact hdset e p hp
                · subst hp; simp
              · intro p hp
                simp only [List.mem_append, List.mem_singleton] at hp
                rcases hp with hp | hp
                · exact huset uu p hp
                · subst hp; simp

theorem file_set_inv (s : State K) (p : Name) (d : Dataset K) (h : Inv s)
    (hl : p ≠ "mass_cuts" → d.vals.length = s.nAll) : Inv { s with file := s.file.set p d } := by
  refine { h with savedFile := ?_, fileLen := ?_ }
  · intro q hq
    simp only [PyDict.get?_set]; split
    · rfl
    · exact h.savedFile q hq
  · intro q d' hd' hq
    simp only [PyDict.get?_set] at hd'
    by_cases hpq : p = q
    · simp only [hpq, if_true, Option.some.injEq] at hd'
      subst hd'; subst hpq; exact hl hq
    · simp only [hpq, if_false] at hd'; exact h.fileLen q d' hd' hq

theorem writeOne_inv (ov : Bool) (s : State K) (p : Name) (h : Inv s) :
    Inv (writeOne ov s p).1 := by
  unfold writeOne
  split
  · exact h
  · rename_i vals hv
    split
    · exact h
    · dsimp only
      split
      · exact h
      · rename_i d0 hd0
        have hd0l : p ≠ "mass_cuts" → d0.vals.length = s.nAll := by
          intro hp
          have hvl := h.loadedLen p vals hv hp
          split at hd0
          · cases hd0; exact hvl
          · split at hd0
            · cases hd0; exact hvl
            · simp at hd0
        split
        · exact file_set_inv s p d0 h hd0l
        · rename_i u hu
          split
          · exact file_set_inv s p _ h hd0l
          · rename_i e he
            have hi := file_set_inv s p { d0 with units := some u, hdep := some e, userdefined := true } h hd0l
            refine { hi with savedFile := ?_ }
            intro q hq
            by_cases hps : p ∈ s.saved
            · simp only [hps, if_true] at hq; exact hi.savedFile q hq
            · simp only [hps, if_false, List.mem_append, List.mem_singleton] at hq
              rcases hq with hq | hq
              · exact hi.savedFile q hq
              · subst hq; simp

theorem deleteOne_inv (s : State K) (p : Name) (h : Inv s) : Inv (deleteOne s p).1 := by
  unfold deleteOne
  split
  · split
    · exact h
    · refine { h with savedFile := ?_, fileLen := ?_, hdepAll := ?_, unitsAll := ?_ }
      · intro q hq; exact (PyDict.mem_keys_iff _ _).1 hq
      · intro q d hd hq
        simp only [PyDict.get?_erase] at hd
        split at hd
        · simp at hd
        · exact h.fileLen q d hd hq
      · intro q hq
        simp only [List.mem_filter, decide_eq_true_eq] at hq
        rw [PyDict.get?_erase, if_neg (fun e => hq.2 e.symm)]
        exact h.hdepAll q hq.1
      · intro q hq
        simp only [List.mem_filter, decide_eq_true_eq] at hq
        rw [PyDict.get?_erase, if_neg (fun e => hq.2 e.symm)]
        exact h.unitsAll q hq.1
  · exact h

theorem make_inv [DivisionRing K] (s : State K) (m : MultiProp K) (o : MakeOpts K) (h : Inv s) :
    Inv (make s m o).1 := by
  unfold make
  dsimp only
  split
  · exact h
  · split
    · exact h
    · split
      · exact h
      · split
        · exact h
        · rename_i _ names _ _ exist _ _ vals _
          have h1 := forEach_preserves (storeOne m.units m.hdep (inds s o.useAll)) Inv
            (items m.names names exist vals) (fun s x _ hs => storeOne_inv _ _ _ s x hs) s h
          split
          · rename_i s1 e hs1; rw [hs1] at h1; exact h1
          · rename_i s1 hs1
            rw [hs1] at h1
            split
            · have h2 := forEach_preserves (writeOne o.overwriteDisk) Inv names
                (fun s x _ hs => writeOne_inv _ s x hs) s1 h1
              unfold write
              split
              · rename_i s2 e hs2; rw [hs2] at h2; exact h2
              · rename_i s2 hs2
                rw [hs2] at h2
                dsimp only
                split
                · exact unload_inv _ _ h2
                · exact h2
            · exact h1

theorem setRange_inv [DivisionRing K] [LE K] [DecidableLE K] (s : State K) (p : Option Name)
    (lo hi : Option K) (reset : Bool) (inH : Option Bool) (h : Inv s) :
    Inv (setRange s p lo hi reset inH).1 := by
  unfold setRange
  split
  · refine { h with sorted := List.pairwise_lt_range, bound := by simp, count := by simp }
  · rename_i p
    split
    · exact h
    · exact h
    · rename_i vals hv
      dsimp only
      have hsort : (nonzeroRange lo hi vals).Pairwise (· < ·) :=
        List.Pairwise.filter _ List.pairwise_lt_range
      have hlen : vals.length = s.nAll := by
        unfold returnProperty at hv
        dsimp only at hv
        split at hv
        · split at hv
          · simp at hv
          · split at hv
            · split at hv
              · simp at hv
              · rename_i vs hg
                simp only [Except.ok.injEq, Option.some.injEq] at hv
                rw [← hv, scaleH_length, (gather_inv _ _ _ hg).2.1]; simp [inds]
            · split at hv
              · split at hv
                · simp at hv
                · split at hv
                  · simp at hv
                  · rename_i vs hg
                    simp only [Except.ok.injEq, Option.some.injEq] at hv
                    rw [← hv, scaleH_length, (gather_inv _ _ _ hg).2.1]; simp [inds]
              · simp at hv
        · simp at hv
      have hb : ∀ i ∈ nonzeroRange lo hi vals, i < s.nAll := by
        intro i hi'
        simp only [nonzeroRange, List.mem_filter, List.mem_range] at hi'
        omega
      refine { h with sorted := ?_, bound := ?_, count := rfl }
      · dsimp only; split
        · exact hsort
        · exact List.Pairwise.filter _ hsort
      · dsimp only; split
        · exact hb
        · intro i hi'; exact hb i (List.mem_filter.1 hi').1

theorem step_inv [DivisionRing K] [LE K] [DecidableLE K] (s : State K) (op : Op K) (h : Inv s) :
    Inv (step s op) := by
  cases op with
  | load ps => exact forEach_preserves _ Inv ps (fun s x _ hs => loadOne_inv s x hs) s h
  | unload ps => exact unload_inv s ps h
  | ret p u i => exact h
  | make m o => exact make_inv s m o h
  | write ps ov => exact forEach_preserves _ Inv ps (fun s x _ hs => writeOne_inv ov s x hs) s h
  | delete ps => exact forEach_preserves _ Inv ps (fun s x _ hs => deleteOne_inv s x hs) s h
  | range p lo hi r i => exact setRange_inv s p lo hi r i h
  | setInH b => exact { h with }

theorem run_inv [DivisionRing K] [LE K] [DecidableLE K] (s : State K) (ops : List (Op K))
    (h : Inv s) : Inv (run s ops) := by
  unfold run
  induction ops generalizing s with
  | nil => exact h
  | cons op ops ih => exact ih _ (step_inv s op h)

end Verif.Handler
