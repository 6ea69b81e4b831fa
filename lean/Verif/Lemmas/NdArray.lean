import Verif.Model.NdArray
import Mathlib.Data.List.GetD

/-!
# Facts about arrays
-/

namespace Verif.Map

variable {V : Type}

theorem Valid.length {shape i : List ℕ} (h : Valid shape i) : i.length = shape.length :=
  List.Forall₂.length_eq h

theorem valid_nil : Valid [] [] := List.Forall₂.nil

theorem valid_cons {n j : ℕ} {shape i : List ℕ} :
    Valid (n :: shape) (j :: i) ↔ j < n ∧ Valid shape i := List.forall₂_cons

theorem valid_iff {shape i : List ℕ} :
    Valid shape i ↔ i.length = shape.length ∧
      ∀ (k : ℕ) (n j : ℕ), shape[k]? = some n → i[k]? = some j → j < n := by
  induction shape generalizing i with
  | nil =>
    cases i with
    | nil => simp [valid_nil]
    | cons j i => simp [Valid]
  | cons n shape ih =>
    cases i with
    | nil => simp [Valid]
    | cons j i =>
      rw [valid_cons, ih]
      constructor
      · rintro ⟨h1, h2, h3⟩
        refine ⟨by simp [h2], ?_⟩
        intro k a b ha hb
        cases k with
        | zero =>
          simp only [List.getElem?_cons_zero, Option.some.injEq] at ha hb
          omega
        | succ k => exact h3 k a b (by simpa using ha) (by simpa using hb)
      · rintro ⟨h1, h2⟩
        refine ⟨h2 0 n j rfl rfl, by simpa using h1, ?_⟩
        intro k a b ha hb
        exact h2 (k + 1) a b (by simpa using ha) (by simpa using hb)

theorem valid_append {s t i j : List ℕ} (h : i.length = s.length) :
    Valid (s ++ t) (i ++ j) ↔ Valid s i ∧ Valid t j := by
  constructor
  · intro hv
    induction s generalizing i with
    | nil =>
      cases i with
      | nil => exact ⟨valid_nil, hv⟩
      | cons _ _ => simp at h
    | cons n s ih =>
      cases i with
      | nil => simp at h
      | cons k i =>
        simp only [List.cons_append, valid_cons] at hv
        have := ih (by simpa using h) hv.2
        exact ⟨valid_cons.2 ⟨hv.1, this.1⟩, this.2⟩
  · rintro ⟨h1, h2⟩
    exact List.rel_append h1 h2

theorem valid_concat {s i : List ℕ} {n p : ℕ} :
    Valid (s ++ [n]) (i ++ [p]) ↔ Valid s i ∧ p < n := by
  by_cases h : i.length = s.length
  · rw [valid_append h]
    simp [Valid]
  · constructor
    · intro hv
      have := hv.length
      simp at this
      exact absurd this h
    · rintro ⟨h1, _⟩
      exact absurd h1.length h

/-- Every index of an array with a last axis is a cell and a position on the last axis. -/
theorem valid_split {s j : List ℕ} {n : ℕ} (h : Valid (s ++ [n]) j) :
    ∃ i p, j = i ++ [p] ∧ Valid s i ∧ p < n := by
  have hl := h.length
  have hne : j ≠ [] := by intro e; subst e; simp at hl
  refine ⟨j.dropLast, j.getLast hne, (List.dropLast_append_getLast hne).symm, ?_⟩
  rw [← valid_concat, List.dropLast_append_getLast hne]
  exact h

theorem Arr.Same.refl (a : Arr V) : a.Same a := ⟨rfl, fun _ _ => rfl⟩

theorem Arr.Same.symm {a b : Arr V} (h : a.Same b) : b.Same a :=
  ⟨h.1.symm, fun i hi => (h.2 i (h.1 ▸ hi)).symm⟩

theorem Arr.Same.trans {a b c : Arr V} (h : a.Same b) (k : b.Same c) : a.Same c :=
  ⟨h.1.trans k.1, fun i hi => (h.2 i hi).trans (k.2 i (h.1 ▸ hi))⟩

theorem unshift_add {shape ps i : List ℕ} (hp : ps.length = shape.length) (hi : Valid shape i) :
    unshift shape ps (List.zipWith (· + ·) i ps) = some i := by
  induction shape generalizing ps i with
  | nil =>
    cases i with
    | nil => cases ps <;> rfl
    | cons j i => simp [Valid] at hi
  | cons n shape ih =>
    cases i with
    | nil => simp [Valid] at hi
    | cons j i =>
      cases ps with
      | nil => simp at hp
      | cons p ps =>
        rw [valid_cons] at hi
        simp only [List.zipWith_cons_cons, unshift]
        rw [if_pos (by omega), ih (by simpa using hp) hi.2]
        simp

theorem unshift_some {shape ps j i : List ℕ} (hp : ps.length = shape.length)
    (hj : j.length = shape.length) (h : unshift shape ps j = some i) :
    Valid shape i ∧ j = List.zipWith (· + ·) i ps := by
  induction shape generalizing ps j i with
  | nil =>
    cases j with
    | nil =>
      simp only [unshift, Option.some.injEq] at h
      subst h
      exact ⟨valid_nil, rfl⟩
    | cons _ _ => simp at hj
  | cons n shape ih =>
    cases j with
    | nil => simp at hj
    | cons k j =>
      cases ps with
      | nil => simp at hp
      | cons p ps =>
        simp only [unshift] at h
        split at h
        · rename_i hk
          cases hu : unshift shape ps j with
          | none => rw [hu] at h; simp at h
          | some r =>
            rw [hu] at h
            simp only [Option.map_some, Option.some.injEq] at h
            subst h
            obtain ⟨h1, h2⟩ := ih (by simpa using hp) (by simpa using hj) hu
            refine ⟨valid_cons.2 ⟨by omega, h1⟩, ?_⟩
            simp only [List.zipWith_cons_cons]
            rw [← h2]
            congr 1
            omega
        · cases h

theorem zipWith_add_zeros (i : List ℕ) (zs : List ℕ) (hl : zs.length = i.length)
    (hz : ∀ z ∈ zs, z = 0) : List.zipWith (· + ·) i zs = i := by
  induction i generalizing zs with
  | nil => simp
  | cons a i ih =>
    cases zs with
    | nil => simp at hl
    | cons z zs =>
      simp only [List.zipWith_cons_cons]
      rw [ih zs (by simpa using hl) (fun x hx => hz x (List.mem_cons_of_mem _ hx)),
        hz z (List.mem_cons_self ..)]
      simp

theorem shape_add_zeros (i : List ℕ) (zs : List ℕ) (hl : zs.length = i.length)
    (hz : ∀ z ∈ zs, z = 0) : List.zipWith (fun n p => n + 2 * p) i zs = i := by
  induction i generalizing zs with
  | nil => simp
  | cons a i ih =>
    cases zs with
    | nil => simp at hl
    | cons z zs =>
      simp only [List.zipWith_cons_cons]
      rw [ih zs (by simpa using hl) (fun x hx => hz x (List.mem_cons_of_mem _ hx)),
        hz z (List.mem_cons_self ..)]
      simp

theorem shape_sub_zeros (i : List ℕ) (zs : List ℕ) (hl : zs.length = i.length)
    (hz : ∀ z ∈ zs, z = 0) : List.zipWith (fun n p => n - 2 * p) i zs = i := by
  induction i generalizing zs with
  | nil => simp
  | cons a i ih =>
    cases zs with
    | nil => simp at hl
    | cons z zs =>
      simp only [List.zipWith_cons_cons]
      rw [ih zs (by simpa using hl) (fun x hx => hz x (List.mem_cons_of_mem _ hx)),
        hz z (List.mem_cons_self ..)]
      simp

theorem Arr.pad_zero (a : Arr V) (zs : List ℕ) (val : V) (hl : zs.length = a.shape.length)
    (hz : ∀ z ∈ zs, z = 0) : (a.pad zs val).Same a := by
  have hs : (a.pad zs val).shape = a.shape := shape_add_zeros _ _ hl hz
  refine ⟨hs, ?_⟩
  intro i hi
  rw [hs] at hi
  have := unshift_add hl hi
  rw [zipWith_add_zeros i zs (by rw [hl, hi.length]) hz] at this
  simp [Arr.pad, this]

theorem Arr.unpad_zero (a : Arr V) (zs : List ℕ) (hl : zs.length = a.shape.length)
    (hz : ∀ z ∈ zs, z = 0) : (a.unpad zs).Same a := by
  have hs : (a.unpad zs).shape = a.shape := shape_sub_zeros _ _ hl hz
  refine ⟨hs, ?_⟩
  intro i hi
  rw [hs] at hi
  simp only [Arr.unpad]
  rw [zipWith_add_zeros i zs (by rw [hl, hi.length]) hz]

/-- The old cells of a padded array. -/
theorem Arr.pad_old (a : Arr V) (ps : List ℕ) (val : V) (hl : ps.length = a.shape.length)
    (i : List ℕ) (hi : Valid a.shape i) :
    (a.pad ps val).get (List.zipWith (· + ·) i ps) = a.get i := by
  simp [Arr.pad, unshift_add hl hi]

/-- The new cells of a padded array. -/
theorem Arr.pad_new (a : Arr V) (ps : List ℕ) (val : V) (hl : ps.length = a.shape.length)
    (j : List ℕ) (hj : j.length = a.shape.length)
    (h : ¬ ∃ i, Valid a.shape i ∧ j = List.zipWith (· + ·) i ps) :
    (a.pad ps val).get j = val := by
  simp only [Arr.pad]
  cases hu : unshift a.shape ps j with
  | none => rfl
  | some i => exact absurd ⟨i, unshift_some hl hj hu⟩ h

theorem valid_shift {shape ps i : List ℕ} (hl : ps.length = shape.length) (hi : Valid shape i) :
    Valid (List.zipWith (fun n p => n + 2 * p) shape ps) (List.zipWith (· + ·) i ps) := by
  induction shape generalizing ps i with
  | nil =>
    cases i with
    | nil => simp [Valid]
    | cons j i => simp [Valid] at hi
  | cons n shape ih =>
    cases i with
    | nil => simp [Valid] at hi
    | cons j i =>
      cases ps with
      | nil => simp at hl
      | cons p ps =>
        rw [valid_cons] at hi
        simp only [List.zipWith_cons_cons]
        rw [valid_cons]
        exact ⟨by omega, ih (by simpa using hl) hi.2⟩

theorem shape_roundtrip (shape ps : List ℕ) (hl : ps.length = shape.length) :
    List.zipWith (fun n u => n - 2 * u) (List.zipWith (fun n p => n + 2 * p) shape ps) ps = shape := by
  induction shape generalizing ps with
  | nil => simp
  | cons n shape ih =>
    cases ps with
    | nil => simp at hl
    | cons p ps =>
      simp only [List.zipWith_cons_cons]
      rw [ih ps (by simpa using hl)]
      simp

theorem Arr.pad_congr {a b : Arr V} (h : a.Same b) (ps : List ℕ) (val : V)
    (hl : ps.length = a.shape.length) : (a.pad ps val).Same (b.pad ps val) := by
  refine ⟨by simp [Arr.pad, h.1], ?_⟩
  intro i hi
  have hil : i.length = a.shape.length := by
    have := hi.length
    simpa [Arr.pad, hl] using this
  simp only [Arr.pad, ← h.1]
  cases hu : unshift a.shape ps i with
  | none => rfl
  | some j => exact h.2 j (unshift_some hl hil hu).1

theorem valid_unpad {shape us i : List ℕ} (hl : us.length = shape.length)
    (hi : Valid (List.zipWith (fun n u => n - 2 * u) shape us) i) :
    Valid shape (List.zipWith (· + ·) i us) := by
  induction shape generalizing us i with
  | nil =>
    cases i with
    | nil => simp [Valid]
    | cons j i => simp [Valid] at hi
  | cons n shape ih =>
    cases us with
    | nil => simp at hl
    | cons u us =>
      cases i with
      | nil => simp [Valid] at hi
      | cons j i =>
        simp only [List.zipWith_cons_cons] at hi ⊢
        rw [valid_cons] at hi ⊢
        exact ⟨by omega, ih (by simpa using hl) hi.2⟩

theorem Arr.unpad_congr {a b : Arr V} (h : a.Same b) (us : List ℕ)
    (hl : us.length = a.shape.length) : (a.unpad us).Same (b.unpad us) := by
  refine ⟨by simp [Arr.unpad, h.1], ?_⟩
  intro i hi
  exact h.2 _ (valid_unpad hl hi)

/-- Removing the padding restores the array. -/
theorem Arr.unpad_pad (a : Arr V) (ps : List ℕ) (val : V) (hl : ps.length = a.shape.length) :
    ((a.pad ps val).unpad ps).Same a := by
  have hs : ((a.pad ps val).unpad ps).shape = a.shape := shape_roundtrip _ _ hl
  refine ⟨hs, ?_⟩
  intro i hi
  rw [hs] at hi
  exact Arr.pad_old a ps val hl i hi

end Verif.Map
