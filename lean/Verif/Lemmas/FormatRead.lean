import Verif.Model.FormatRead
import Verif.Spec.FormatRead
import Verif.Spec.SimAll
import Verif.Props.Format
import Verif.Lemmas.HandlerMake
import Verif.Props.HandlerRead
import Verif.Props.SimAll

set_option linter.unusedSectionVars false

/-!
# Lemmas about reading formatted files
-/

namespace Verif.Format

open Verif.Sim (SnapMeta)
open Verif.Format.Spec
open Verif.Handler (Dataset V State)
open Verif.Handler.Spec (WF)

/-! ## Dictionaries -/

section
variable {κ α β : Type} [DecidableEq κ]

theorem dict_of_mem (d : PyDict κ α) (hnd : d.keys.Nodup) (k : κ) (x : α) (h : (k, x) ∈ d) :
    d.get? k = some x := by
  induction d with
  | nil => cases h
  | cons q d ih =>
    obtain ⟨k', x'⟩ := q
    simp only [PyDict.keys, List.map_cons, List.nodup_cons] at hnd
    rcases List.mem_cons.1 h with e | h
    · cases e; simp [PyDict.get?]
    · have hne : ¬ k' = k := fun e => hnd.1 (e ▸ List.mem_map_of_mem (f := Prod.fst) h)
      simp only [PyDict.get?, hne, if_false]
      exact ih hnd.2 h

theorem dict_mem (d : PyDict κ α) (k : κ) (x : α) (h : d.get? k = some x) : (k, x) ∈ d := by
  induction d with
  | nil => cases h
  | cons q d ih =>
    obtain ⟨k', x'⟩ := q
    simp only [PyDict.get?] at h
    split at h
    · rename_i e; subst e; cases h; exact List.mem_cons_self
    · exact List.mem_cons_of_mem _ (ih h)

theorem readAll_some (f : α → Option β) (d : PyDict κ α) (h : ∀ p ∈ d, (f p.2).isSome) :
    ∃ out, readAll f d = some out := by
  induction d with
  | nil => exact ⟨[], rfl⟩
  | cons q d ih =>
    obtain ⟨k, x⟩ := q
    obtain ⟨out, ho⟩ := ih (fun p hp => h p (List.mem_cons_of_mem _ hp))
    obtain ⟨y, hy⟩ := Option.isSome_iff_exists.1 (h (k, x) List.mem_cons_self)
    exact ⟨(k, y) :: out, by simp only [readAll, hy, ho]⟩

theorem readAll_get (f : α → Option β) (d : PyDict κ α) (out : PyDict κ β)
    (h : readAll f d = some out) : out.keys = d.keys ∧ ∀ k, out.get? k = (d.get? k).bind f := by
  induction d generalizing out with
  | nil => cases h; exact ⟨rfl, fun _ => rfl⟩
  | cons q d ih =>
    obtain ⟨k', x⟩ := q
    simp only [readAll] at h
    cases hx : f x with
    | none => rw [hx] at h; cases h
    | some y =>
      cases hr : readAll f d with
      | none => rw [hx, hr] at h; cases h
      | some ys =>
        rw [hx, hr] at h
        cases h
        obtain ⟨h1, h2⟩ := ih ys hr
        refine ⟨by simp only [PyDict.keys, List.map_cons] at h1 ⊢; rw [h1], fun k => ?_⟩
        simp only [PyDict.get?]
        split
        · simp [hx]
        · exact h2 k

end

variable {K : Type}

/-! ## Names in a group are unique -/

/-- The names in every group are different. -/
def NamesUnique (d : Disk K) : Prop := ∀ i g, groupOf d i = some g → g.data.keys.Nodup

theorem names_onGroup (d : Disk K) (hd : NamesUnique d) (i : ℕ) (f : Group K → Group K)
    (hf : ∀ g, g.data.keys.Nodup → (f g).data.keys.Nodup) : NamesUnique (onGroup d i f) := by
  obtain ⟨file, raw⟩ := d
  cases file with
  | none => exact hd
  | some file =>
    unfold onGroup
    simp only
    cases hg : file.groups.get? i with
    | none => exact hd
    | some g =>
      intro j g' hg'
      simp only [groupOf, PyDict.get?_set] at hg'
      split at hg'
      · cases hg'; exact hf g (hd i g hg)
      · exact hd j g' hg'

theorem names_apply (d : Disk K) (hd : NamesUnique d) (e : Eff K) : NamesUnique (apply d e) := by
  have hmap : ∀ f : File K → File K, (∀ x, (f x).groups = x.groups) →
      NamesUnique { d with file := d.file.map f } := by
    intro f hf i g hg
    refine hd i g ?_
    unfold groupOf at hg ⊢
    cases hx : d.file with
    | none => rw [hx] at hg; cases hg
    | some x =>
      rw [hx] at hg
      simp only [Option.map_some, hf] at hg
      exact hg
  cases e with
  | truncate => intro i g hg; cases hg
  | setMetas l => exact hmap _ (fun _ => rfl)
  | setNum l => exact hmap _ (fun _ => rfl)
  | delGroup j =>
    intro i g hg
    refine hd i g ?_
    unfold groupOf at hg ⊢
    simp only [apply] at hg
    cases hx : d.file with
    | none => rw [hx] at hg; cases hg
    | some x =>
      rw [hx] at hg
      simp only [Option.map_some, PyDict.get?_erase] at hg
      split at hg
      · cases hg
      · exact hg
  | newGroup j =>
    intro i g hg
    unfold groupOf at hg
    simp only [apply] at hg
    cases hx : d.file with
    | none => rw [hx] at hg; cases hg
    | some x =>
      rw [hx] at hg
      simp only [Option.map_some, PyDict.get?_set] at hg
      split at hg
      · cases hg; exact List.Pairwise.nil
      · exact hd i g (by unfold groupOf; rw [hx]; exact hg)
  | newCuts i t => exact names_onGroup d hd i _ (fun g h => h)
  | newData i p c => exact names_onGroup d hd i _ (fun g h => PyDict.keys_set_nodup _ _ _ h)
  | setUnits i p u =>
    refine names_onGroup d hd i _ (fun g h => ?_)
    cases hp : g.data.get? p with
    | none => simpa [hp] using h
    | some x => simpa [hp] using PyDict.keys_set_nodup _ _ _ h
  | setHdep i p u =>
    refine names_onGroup d hd i _ (fun g h => ?_)
    cases hp : g.data.get? p with
    | none => simpa [hp] using h
    | some x => simpa [hp] using PyDict.keys_set_nodup _ _ _ h
  | setInfo i l => exact names_onGroup d hd i _ (fun g h => h)
  | rmRaw i => exact hd

theorem names_applyAll (es : List (Eff K)) : ∀ d : Disk K, NamesUnique d → NamesUnique (applyAll d es) := by
  induction es with
  | nil => intro d hd; exact hd
  | cons e es ih => intro d hd; exact ih _ (names_apply d hd e)

variable [LinearOrder K]

theorem History.names {d0 : Disk K} (h0 : NamesUnique d0) {hs : List (Run K × Disk K)} {d : Disk K}
    (h : History d0 hs d) : NamesUnique d := by
  induction h with
  | nil => exact h0
  | run _ r es _ _ _ ih => exact names_applyAll es _ ih
  | raw _ raw ih => exact ih

theorem History.reached {d0 : Disk K} {hs : List (Run K × Disk K)} {d : Disk K}
    (h : History d0 hs d) : Reached d0 d := by
  induction h with
  | nil => exact .refl _
  | run _ r es hsound hc hf ih => exact .run ih r es es _ hsound hf List.prefix_rfl
  | raw _ raw ih => exact .raw ih raw

/-! ## Reading a complete group -/

theorem readCol_ok (D : Data K) (n : ℕ) (p : List ℕ) (hp : p.length = n) (hs : size D.data = n)
    (h : ∀ k j : ℕ, p[k]? = some j → ∃ x, row D.data k = some (.num x)) :
    ∃ v, readCol D.data = some v ∧ v.length = n ∧
      ∀ (k : ℕ) x, row D.data k = some (.num x) → v[k]? = some (some x) := by
  cases hD : D.data with
  | one v =>
    rw [hD] at hs
    refine ⟨v.map some, rfl, by simpa [size] using hs, ?_⟩
    intro k x hk
    simp only [row, Option.map_eq_some_iff] at hk
    obtain ⟨y, hy, e⟩ := hk
    cases e
    simp [hy]
  | many rows =>
    rw [hD] at hs h
    cases rows with
    | nil =>
      refine ⟨[], rfl, by simpa [size] using hs, ?_⟩
      intro k x hk
      simp [row] at hk
    | cons r rows =>
      exfalso
      have hlen : 0 < p.length := by rw [hp, ← hs]; simp [size]
      obtain ⟨x, hx⟩ := h 0 p[0] (List.getElem?_eq_getElem hlen)
      simp [row] at hx

/-- What a handler reads from a complete group. -/
theorem group_read (cat : Cat K) (other : Fields) (raw : Raw K) (i : ℕ) (g : Group K)
    (hc : Complete cat other raw i g) (hnd : g.data.keys.Nodup) (hnum : Numbers cat other raw) :
    ∃ (G : PyDict Handler.Name (Dataset K)) (p : List ℕ), readGroup g = some G ∧ WF G raw.n ∧ p.Perm (List.range raw.n) ∧
      (∀ name, (G.get? name).isSome ↔ ∃ e, Stored cat.basic other e ∧ e.sub.name = name) ∧
      (∀ q ∈ g.data, q.2.units.isSome ∧ q.2.hdep.isSome) ∧
      ∀ e, Stored cat.basic other e → ∃ d, G.get? e.sub.name = some d ∧
        d.hdep = some e.sub.hdep ∧ ∀ k r : ℕ, p[k]? = some r →
          ∃ x, value cat raw e r = some (.num x) ∧ d.vals[k]? = some (some x) := by
  obtain ⟨p, hp, hrows⟩ := hc.rows
  have hpl : p.length = raw.n := by rw [hp.length_eq, List.length_range]
  -- every dataset
  have hall : ∀ name D, g.data.get? name = some D → ∃ v, readData D = some ⟨v, D.units, D.hdep, false⟩ ∧
      v.length = raw.n ∧ D.units.isSome ∧ D.hdep.isSome := by
    intro name D hD
    obtain ⟨e, he, hn⟩ := hc.only name (by rw [PyDict.mem_keys_iff, hD]; rfl)
    subst hn
    obtain ⟨D', h1, h2, h3, h4, h5⟩ := hrows e he
    rw [hD] at h1; cases h1
    obtain ⟨v, v1, v2, -⟩ := readCol_ok D raw.n p hpl h4 (fun k j hk => by
      obtain ⟨w, w1, w2⟩ := h5 k j hk
      obtain ⟨x, rfl⟩ := hnum e he j w w2
      exact ⟨x, w1⟩)
    exact ⟨v, by simp [readData, v1], v2, by simp [h2], by simp [h3]⟩
  obtain ⟨G, hG⟩ := readAll_some readData g.data (fun q hq => by
    obtain ⟨v, hv, -⟩ := hall q.1 q.2 (dict_of_mem _ hnd _ _ hq)
    rw [hv]; rfl)
  obtain ⟨hk, hget⟩ := readAll_get readData g.data G hG
  have hnd' : G.keys.Nodup := by rw [hk]; exact hnd
  have hG' : ∀ name d, G.get? name = some d → d.vals.length = raw.n ∧ d.units.isSome ∧ d.hdep.isSome := by
    intro name d hd
    rw [hget] at hd
    cases hD : g.data.get? name with
    | none => rw [hD] at hd; cases hd
    | some D =>
      rw [hD] at hd
      obtain ⟨v, v1, v2, v3, v4⟩ := hall name D hD
      simp only [Option.bind_some, v1, Option.some.injEq] at hd
      subst hd
      exact ⟨v2, v3, v4⟩
  refine ⟨G, p, hG, ⟨hnd', ?_, ?_, ?_, ?_⟩, hp, ?_, ?_, ?_⟩
  · obtain ⟨D, ms, m1, -⟩ := hc.sorted
    obtain ⟨v, v1, v2, -⟩ := hall "mass" D m1
    exact ⟨⟨v, D.units, D.hdep, false⟩, by rw [hget, m1]; exact v1, v2⟩
  · intro q d hd _; exact (hG' q d hd).1
  · intro q d hd _; exact (hG' q d (dict_of_mem _ hnd' _ _ hd)).2.1
  · intro q d hd _; exact (hG' q d (dict_of_mem _ hnd' _ _ hd)).2.2
  · intro name
    rw [← PyDict.mem_keys_iff, hk]
    constructor
    · exact hc.only name
    · rintro ⟨e, he, rfl⟩
      obtain ⟨D, h1, -⟩ := hrows e he
      rw [PyDict.mem_keys_iff, h1]; rfl
  · intro q hq
    obtain ⟨v, -, -, h1, h2⟩ := hall q.1 q.2 (dict_of_mem _ hnd _ _ hq)
    exact ⟨h1, h2⟩
  · intro e he
    obtain ⟨D, h1, h2, h3, h4, h5⟩ := hrows e he
    obtain ⟨v, v1, v2, v3⟩ := readCol_ok D raw.n p hpl h4 (fun k j hk => by
      obtain ⟨w, w1, w2⟩ := h5 k j hk
      obtain ⟨x, rfl⟩ := hnum e he j w w2
      exact ⟨x, w1⟩)
    refine ⟨⟨v, D.units, D.hdep, false⟩, by rw [hget, h1]; simp [readData, v1], h3, ?_⟩
    intro k r hk
    obtain ⟨w, w1, w2⟩ := h5 k r hk
    obtain ⟨x, rfl⟩ := hnum e he r w w2
    exact ⟨x, w2, v3 k x w1⟩

end Verif.Format
