import Verif.Spec.LCMap
import Verif.Model.LCMap
import Verif.Props.LCOpen
import Verif.Props.LCGrid

set_option linter.unusedSectionVars false

/-!
# What is put into maps of lightcones
-/

namespace Verif.LC

open Verif.Handler (State V Name Op run returnProperty)
open Verif.Handler.Spec (changes selection seen)

open Verif.LC.Spec

variable {K : Type} [Field K] [LinearOrder K] [IsStrictOrderedRing K] [FloorRing K]

theorem seen_zero (h : K) (b : Bool) (v : V K) : seen h 0 b v = v := by
  unfold seen
  split
  · rfl
  · cases v <;> simp

theorem selection_row {st : State K} {rows : List (Row K)} {h : K}
    (hra : Shown st "ra" 0 h (rows.map Row.ra)) (ops : List (Op K))
    (hops : ∀ op ∈ ops, ¬ changes "ra" op) (useAll : Bool) (k : ℕ)
    (hk : k ∈ selection (run st ops) useAll) : ∃ r, rows[k]? = some r := by
  obtain ⟨out, -, -, h3⟩ := hra ops hops useAll none
  obtain ⟨j, hj⟩ := List.getElem?_of_mem hk
  obtain ⟨x, hx, -⟩ := h3 j k hj
  rw [List.getElem?_map] at hx
  cases hr : rows[k]? with
  | none => rw [hr] at hx; simp at hx
  | some r => exact ⟨r, rfl⟩

/-- A property that is shown, read as a list over the selected objects. -/
theorem shown_read {st : State K} {name : Name} {ε : ℤ} {h : K} {l : List K}
    (hs : Shown st name ε h l) (ops : List (Op K)) (hops : ∀ op ∈ ops, ¬ changes name op)
    (useAll : Bool) (b : Option Bool) :
    returnProperty (run st ops) name useAll b = .ok (some
      ((selection (run st ops) useAll).map (fun k => ((shownAs h ε (b.getD (run st ops).inH) l)[k]?).join))) := by
  obtain ⟨out, h1, h2, h3⟩ := hs ops hops useAll b
  rw [h1]
  congr 2
  apply List.ext_getElem? 
  intro j
  rw [List.getElem?_map]
  cases hk : (selection (run st ops) useAll)[j]? with
  | none =>
    rw [List.getElem?_eq_none_iff] at hk
    simp only [Option.map_none]
    rw [List.getElem?_eq_none_iff]
    omega
  | some k =>
    obtain ⟨x, hx, ho⟩ := h3 j k hk
    rw [ho]
    simp [shownAs, hx]

/-- The objects put into a map. -/
theorem catalogue_shown {st : State K} {rows : List (Row K)} {h : K}
    (hra : Shown st "ra" 0 h (rows.map Row.ra)) (hdec : Shown st "dec" 0 h (rows.map Row.dec))
    (hz : Shown st "redshift" 0 h (rows.map Row.redshift)) (names : List Name)
    (col : Name → ℤ × List K) (hcol : ∀ p ∈ names, Shown st p (col p).1 h (col p).2)
    (ops : List (Op K)) (hops : ∀ op ∈ ops, ∀ p ∈ ["ra", "dec", "redshift"] ++ names, ¬ changes p op)
    (useAll : Bool) (b : Option Bool) :
    HGrid.Spec.Catalogue (run st ops) useAll b ["ra", "dec", "redshift"] names
      ((selection (run st ops) useAll).map (entry rows
        (names.map (fun p => shownAs h (col p).1 (b.getD (run st ops).inH) (col p).2)))) := by
  have hrow := selection_row hra ops (fun op ho => hops op ho "ra" (by simp)) useAll
  have hpos : ∀ (p : Name) (g : Row K → K) (i : ℕ), Shown st p 0 h (rows.map g) →
      p ∈ ["ra", "dec", "redshift"] → (∀ r : Row K, [r.ra, r.dec, r.redshift][i]? = some (g r)) →
      returnProperty (run st ops) p useAll b = .ok (some
        (((selection (run st ops) useAll).map (entry rows
          (names.map (fun p => shownAs h (col p).1 (b.getD (run st ops).inH) (col p).2)))).map
            (fun o => o.1[i]?))) := by
    intro p g i hs hp hg
    rw [shown_read hs ops (fun op ho => hops op ho p (List.mem_append_left _ hp)) useAll b]
    congr 2
    rw [List.map_map]
    refine List.map_congr_left ?_
    intro k hk
    obtain ⟨r, hr⟩ := hrow k hk
    simp [shownAs, hr, seen_zero, entry, hg]
  refine ⟨?_, ?_, ?_, ?_⟩
  · intro k p hp
    match k, hp with
    | 0, hp => simp only [List.getElem?_cons_zero, Option.some.injEq] at hp; subst hp; exact hpos _ _ _ hra (by simp) (fun _ => rfl)
    | 1, hp => simp at hp; subst hp; exact hpos _ _ _ hdec (by simp) (fun _ => rfl)
    | 2, hp => simp at hp; subst hp; exact hpos _ _ _ hz (by simp) (fun _ => rfl)
    | k + 3, hp => simp at hp
  · intro k p hp
    have hmem : p ∈ names := List.mem_of_getElem? hp
    rw [shown_read (hcol p hmem) ops (fun op ho => hops op ho p (List.mem_append_right _ hmem)) useAll b]
    congr 2
    rw [List.map_map]
    refine List.map_congr_left ?_
    intro i hi
    simp [entry, List.getD_eq_getElem?_getD, hp]
  · intro o ho
    obtain ⟨k, hk, rfl⟩ := List.mem_map.1 ho
    obtain ⟨r, hr⟩ := hrow k hk
    simp [entry, hr]
  · intro o ho
    obtain ⟨k, hk, rfl⟩ := List.mem_map.1 ho
    simp [entry]

theorem valueOf_entry (rows : List (Row K)) (cols : List (List (V K))) (p : ℕ) (l : List (V K))
    (hp : cols[p]? = some l) (k : ℕ) :
    HGrid.Spec.valueOf p (entry rows cols k) = valueAt l k := by
  unfold HGrid.Spec.valueOf valueAt entry
  simp only [List.getD_eq_getElem?_getD, List.getElem?_map, hp, Option.map_some, Option.getD_some]
  cases (l[k]?).join <;> rfl

end Verif.LC
