/-!
# Loops that can raise
-/

namespace Verif

/-- `[f(x) for x in xs]` where `f` can raise: the first exception stops the loop. -/
def mapE {ε α β : Type _} (f : α → Except ε β) : List α → Except ε (List β)
  | [] => .ok []
  | x :: xs =>
    match f x with
    | .error e => .error e
    | .ok y =>
      match mapE f xs with
      | .error e => .error e
      | .ok ys => .ok (y :: ys)

theorem mapE_ok_iff {ε α β : Type _} (f : α → Except ε β) (xs : List α) (ys : List β) :
    mapE f xs = .ok ys ↔ ys.length = xs.length ∧
      ∀ (k : Nat) (x : α), xs[k]? = some x → ∃ y, ys[k]? = some y ∧ f x = .ok y := by
  induction xs generalizing ys with
  | nil =>
    cases ys with
    | nil => simp [mapE]
    | cons y ys => simp [mapE]
  | cons x xs ih =>
    unfold mapE
    cases hx : f x with
    | error e =>
      simp only [reduceCtorEq, false_iff, not_and]
      intro _ h
      obtain ⟨y, _, h2⟩ := h 0 x rfl
      rw [hx] at h2
      cases h2
    | ok y =>
      simp only
      cases hm : mapE f xs with
      | error e =>
        simp only [reduceCtorEq, false_iff, not_and]
        intro hl h
        cases ys with
        | nil => simp at hl
        | cons z zs =>
          have : mapE f xs = .ok zs := by
            rw [ih]
            refine ⟨by simpa using hl, ?_⟩
            intro k w hw
            obtain ⟨v, h1, h2⟩ := h (k + 1) w (by simpa using hw)
            exact ⟨v, by simpa using h1, h2⟩
          rw [hm] at this
          cases this
      | ok zs =>
        simp only [Except.ok.injEq]
        have hz := (ih zs).1 hm
        constructor
        · rintro rfl
          refine ⟨by simp [hz.1], ?_⟩
          intro k w hw
          cases k with
          | zero =>
            have : x = w := by simpa using hw
            subst this
            exact ⟨y, rfl, hx⟩
          | succ k => exact hz.2 k w (by simpa using hw)
        · rintro ⟨hl, h⟩
          cases ys with
          | nil => simp at hl
          | cons v vs =>
            obtain ⟨y', h1, h2⟩ := h 0 x rfl
            rw [hx] at h2
            have hy : y = y' := by simpa using h2
            have hv : v = y' := by simpa using h1
            have : mapE f xs = .ok vs := by
              rw [ih]
              refine ⟨by simpa using hl, ?_⟩
              intro k w hw
              obtain ⟨u, h1, h2⟩ := h (k + 1) w (by simpa using hw)
              exact ⟨u, by simpa using h1, h2⟩
            rw [hm] at this
            have hzz : zs = vs := by simpa using this
            rw [hy, hv, hzz]

theorem mapE_length {ε α β : Type _} {f : α → Except ε β} {xs : List α} {ys : List β}
    (h : mapE f xs = .ok ys) : ys.length = xs.length := ((mapE_ok_iff f xs ys).1 h).1

/-- Every output comes from an input at the same position. -/
theorem mapE_get {ε α β : Type _} {f : α → Except ε β} {xs : List α} {ys : List β}
    (h : mapE f xs = .ok ys) (k : Nat) (y : β) (hy : ys[k]? = some y) :
    ∃ x, xs[k]? = some x ∧ f x = .ok y := by
  obtain ⟨hl, hf⟩ := (mapE_ok_iff f xs ys).1 h
  have hk : k < ys.length := by
    rcases Nat.lt_or_ge k ys.length with h | h
    · exact h
    · rw [List.getElem?_eq_none h] at hy; cases hy
  have hx : xs[k]? = some (xs[k]'(by omega)) := List.getElem?_eq_getElem (by omega)
  obtain ⟨y', h1, h2⟩ := hf k _ hx
  rw [hy] at h1
  have : y = y' := by simpa using h1
  subst this
  exact ⟨_, hx, h2⟩

theorem mapE_mem {ε α β : Type _} {f : α → Except ε β} {xs : List α} {ys : List β}
    (h : mapE f xs = .ok ys) (y : β) (hy : y ∈ ys) : ∃ x ∈ xs, f x = .ok y := by
  obtain ⟨k, hk⟩ := List.getElem?_of_mem hy
  obtain ⟨x, h1, h2⟩ := mapE_get h k y hk
  exact ⟨x, List.mem_of_getElem? h1, h2⟩

theorem mapE_mem' {ε α β : Type _} {f : α → Except ε β} {xs : List α} {ys : List β}
    (h : mapE f xs = .ok ys) (x : α) (hx : x ∈ xs) : ∃ y ∈ ys, f x = .ok y := by
  obtain ⟨k, hk⟩ := List.getElem?_of_mem hx
  obtain ⟨y, h1, h2⟩ := ((mapE_ok_iff f xs ys).1 h).2 k x hk
  exact ⟨y, List.mem_of_getElem? h1, h2⟩

/-- The loop succeeds if every step does. -/
theorem mapE_total {ε α β : Type _} (f : α → Except ε β) (xs : List α)
    (h : ∀ x ∈ xs, ∃ y, f x = .ok y) : ∃ ys, mapE f xs = .ok ys := by
  induction xs with
  | nil => exact ⟨[], rfl⟩
  | cons x xs ih =>
    obtain ⟨y, hy⟩ := h x (by simp)
    obtain ⟨ys, hys⟩ := ih (fun z hz => h z (List.mem_cons_of_mem _ hz))
    exact ⟨y :: ys, by simp only [mapE, hy, hys]⟩

end Verif
