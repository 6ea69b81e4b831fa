/-!
# Python dictionaries

A Python `dict` preserves insertion order; assigning to an existing key keeps its
place, assigning to a new key appends.  Used wherever the code uses a `dict`
(or an HDF5 group, which is a name-indexed collection).
-/

namespace Verif

/-- A Python `dict` as a list of key/value pairs in insertion order. -/
abbrev PyDict (κ : Type) (α : Type _) := List (κ × α)

namespace PyDict
variable {κ : Type} [DecidableEq κ] {α : Type _}

/-- `d.get(k)` / `d[k]` (`none` stands for a missing key, i.e. `KeyError`). -/
def get? (d : PyDict κ α) (k : κ) : Option α :=
  match d with
  | [] => none
  | (k', v) :: rest => if k' = k then some v else get? rest k

/-- `d[k] = v`. -/
def set (d : PyDict κ α) (k : κ) (v : α) : PyDict κ α :=
  match d with
  | [] => [(k, v)]
  | (k', v') :: rest => if k' = k then (k, v) :: rest else (k', v') :: set rest k v

/-- `d.pop(k, None)` / `del d[k]` for a present key. -/
def erase (d : PyDict κ α) (k : κ) : PyDict κ α :=
  d.filter (fun p => decide (p.1 ≠ k))

/-- `list(d.keys())`. -/
def keys (d : PyDict κ α) : List κ := d.map Prod.fst

/-- `k in d`. -/
def has (d : PyDict κ α) (k : κ) : Bool := (d.get? k).isSome

@[simp] theorem get?_nil (k : κ) : get? ([] : PyDict κ α) k = none := rfl

theorem get?_cons (k' : κ) (v : α) (rest : PyDict κ α) (k : κ) :
    get? ((k', v) :: rest) k = if k' = k then some v else get? rest k := rfl

@[simp] theorem get?_set (d : PyDict κ α) (k k' : κ) (v : α) :
    (d.set k v).get? k' = if k = k' then some v else d.get? k' := by
  induction d with
  | nil => simp [set, get?]
  | cons p rest ih =>
    obtain ⟨q, w⟩ := p
    by_cases h : q = k
    · subst h
      by_cases h2 : q = k' <;> simp [set, get?, h2]
    · by_cases h2 : q = k'
      · subst h2
        have : ¬ k = q := fun e => h e.symm
        simp [set, get?, h, this]
      · simp [set, get?, h, h2, ih]

@[simp] theorem get?_erase (d : PyDict κ α) (k k' : κ) :
    (d.erase k).get? k' = if k = k' then none else d.get? k' := by
  induction d with
  | nil => simp [erase, get?]
  | cons p rest ih =>
    obtain ⟨q, w⟩ := p
    unfold erase at ih ⊢
    by_cases h : q = k
    · subst h
      by_cases h2 : q = k'
      · simp [h2] at ih ⊢; exact ih
      · simp [h2, get?] at ih ⊢; exact ih
    · by_cases h2 : q = k'
      · subst h2
        have h3 : ¬ k = q := fun e => h e.symm
        simp [h, h3, get?]
      · simp only [ne_eq, h, not_false_eq_true, decide_true, List.filter_cons_of_pos, get?, h2,
          if_false]
        exact ih

theorem mem_keys_iff (d : PyDict κ α) (k : κ) : k ∈ d.keys ↔ (d.get? k).isSome := by
  induction d with
  | nil => simp [keys, get?]
  | cons p rest ih =>
    obtain ⟨q, w⟩ := p
    unfold keys at ih ⊢
    by_cases h : q = k
    · simp [get?, h]
    · have h' : ¬ k = q := fun e => h e.symm
      simp [get?, h, h', ih]

theorem has_iff (d : PyDict κ α) (k : κ) : d.has k = true ↔ k ∈ d.keys := by
  rw [mem_keys_iff]; rfl

theorem keys_set_nodup (d : PyDict κ α) (k : κ) (v : α) (h : d.keys.Nodup) :
    (d.set k v).keys.Nodup := by
  have key : ∀ d : PyDict κ α, ∀ x, x ∈ (d.set k v).keys ↔ x = k ∨ x ∈ d.keys := by
    intro d x
    rw [mem_keys_iff, mem_keys_iff, get?_set]
    by_cases hx : k = x
    · simp [hx]
    · have : ¬ x = k := fun e => hx e.symm
      simp [hx, this]
  induction d with
  | nil => simp [set, keys]
  | cons p rest ih =>
    obtain ⟨q, w⟩ := p
    simp only [keys, List.map_cons, List.nodup_cons] at h
    by_cases hq : q = k
    · subst hq; simpa [set, keys] using h
    · have := ih h.2
      simp only [set, hq, if_false, keys, List.map_cons, List.nodup_cons]
      refine ⟨fun hm => ?_, this⟩
      rcases (key rest q).1 hm with h1 | h1
      · exact hq h1
      · exact h.1 h1

theorem keys_erase_nodup (d : PyDict κ α) (k : κ) (h : d.keys.Nodup) :
    (d.erase k).keys.Nodup := by
  unfold keys erase at *
  exact List.Nodup.sublist (List.Sublist.map _ List.filter_sublist) h

end PyDict
end Verif
