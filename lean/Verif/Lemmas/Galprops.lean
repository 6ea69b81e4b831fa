import Verif.Spec.Galprops
import Verif.Lemmas.Match
import Mathlib.Tactic.Linarith
import Mathlib.Tactic.Ring
import Mathlib.Tactic.FieldSimp

set_option linter.unusedSectionVars false

/-!
# Lemmas about the galaxy property functions
-/

namespace Verif.Gal

open Verif.Gal.Spec

variable {K G : Type} [Field K] [LinearOrder K] [IsStrictOrderedRing K]

theorem zipL_same {α β γ : Type} (f : α → β → γ) (xs : List α) (ys : List β)
    (h : xs.length = ys.length) : zipL f xs ys = .ok (List.zipWith f xs ys) := by
  unfold zipL; rw [if_pos h]

theorem zipL_single {α β γ : Type} (f : α → β → γ) (xs : List α) (y : β) :
    zipL f xs [y] = .ok (xs.map (fun x => f x y)) := by
  unfold zipL
  split
  · rename_i h
    match xs, h with
    | [x], _ => rfl
  · rename_i h
    match xs, h with
    | [], _ => rfl
    | [x], h => simp at h
    | x :: x' :: xs, _ => rfl

theorem zipL_length {α β γ : Type} (f : α → β → γ) (xs : List α) (ys : List β) (zs : List γ)
    (h : zipL f xs ys = .ok zs) : zs.length = xs.length ∨ xs.length = 1 := by
  unfold zipL at h
  split at h
  · rename_i hl
    simp only [Except.ok.injEq] at h; subst h
    left; simp [hl]
  · split at h
    · right; simp
    · simp only [Except.ok.injEq] at h; subst h; left; simp
    · cases h

/-- Scatter of a fixed width gives values in the same shape, and changes only the generator passed. -/
theorem scatterOwn_one (fn : Fn K) {R : Rng K G} (hR : Lawful R) (on : Bool) (x : Arg K) (d : K)
    (p : Bool) (w : World G) :
    ∃ y, (scatterOwn fn R on x (.one d) p w).1 = .ok y ∧
      (∀ v, x = .one v → ∃ u, y = .one u) ∧
      (∀ xs, x = .many xs → ∃ ys, y = .many ys ∧ ys.length = xs.length) := by
  unfold scatterOwn
  cases on
  · exact ⟨x, rfl, fun v h => ⟨v, h⟩, fun xs h => ⟨xs, h, rfl⟩⟩
  · simp only [if_true]
    unfold log10normal
    cases x with
    | one v =>
      have : ∃ mu, centre fn (.one v) (.one d) p = .ok (.one mu) := by
        unfold centre; cases p <;> simp [zipA]
      obtain ⟨mu, hm⟩ := this
      rw [hm]
      simp only [Arg.size]
      have hl := hR.normal 1 w.own
      match hz : (R.normal 1 w.own).1, hl with
      | [z], _ =>
        refine ⟨_, rfl, fun _ _ => ⟨_, rfl⟩, fun xs h => by cases h⟩
    | many xs =>
      have : ∃ ms, centre fn (.many xs) (.one d) p = .ok (.many ms) ∧ ms.length = xs.length := by
        unfold centre; cases p <;> simp [zipA]
      obtain ⟨ms, hm, hl⟩ := this
      rw [hm]
      simp only [Arg.size, spread, shaped, zipA]
      rw [zipL_same _ _ _ (by simp [hR.normal])]
      refine ⟨_, rfl, fun v h => (by cases h), fun ys h => ?_⟩
      cases h
      exact ⟨_, rfl, by simp [hR.normal, hl]⟩

/-- Scatter of a width for each galaxy. -/
theorem scatterOwn_many (fn : Fn K) {R : Rng K G} (hR : Lawful R) (on : Bool) (xs ds : List K)
    (w : World G) (hl : ds.length = xs.length) :
    ∃ ys, (scatterOwn fn R on (.many xs) (.many ds) false w).1 = .ok (.many ys) ∧
      ys.length = xs.length := by
  unfold scatterOwn
  cases on
  · exact ⟨xs, rfl, rfl⟩
  · simp only [if_true, log10normal, centre, Bool.false_eq_true, if_false, Arg.size, spread, shaped,
      zipA]
    rw [zipL_same _ _ _ (by simp [hR.normal, hl])]
    simp only [Except.map]
    rw [zipL_same _ _ _ (by simp [hR.normal, hl])]
    exact ⟨_, rfl, by simp [hR.normal, hl]⟩

/-- With scatter switched off nothing happens. -/
theorem scatterOwn_off (fn : Fn K) (R : Rng K G) (x d : Arg K) (p : Bool) (w : World G) :
    scatterOwn fn R false x d p w = (.ok x, w) := rfl

theorem scatterOwn_own (fn : Fn K) (R : Rng K G) (on : Bool) (x d : Arg K) (p : Bool)
    (w w' : World G) (h : w.own = w'.own) :
    (scatterOwn fn R on x d p w).1 = (scatterOwn fn R on x d p w').1 ∧
    (scatterOwn fn R on x d p w).2.own = (scatterOwn fn R on x d p w').2.own := by
  unfold scatterOwn
  cases on
  · exact ⟨rfl, h⟩
  · simp [h]

theorem scatterOwn_frame (fn : Fn K) (R : Rng K G) (on : Bool) (x d : Arg K) (p : Bool)
    (w : World G) :
    (scatterOwn fn R on x d p w).2.deflt = w.deflt ∧ (scatterOwn fn R on x d p w).2.glob = w.glob := by
  unfold scatterOwn
  cases on <;> exact ⟨rfl, rfl⟩

theorem amin_le (x : K) (xs : List K) : amin x xs ≤ x ∧ ∀ y ∈ xs, amin x xs ≤ y := by
  unfold amin
  induction xs generalizing x with
  | nil => simp
  | cons y ys ih =>
    simp only [List.foldl_cons, List.mem_cons, forall_eq_or_imp]
    obtain ⟨h1, h2⟩ := ih (min x y)
    exact ⟨h1.trans (min_le_left _ _), h1.trans (min_le_right _ _), h2⟩

theorem le_amax (x : K) (xs : List K) : x ≤ amax x xs ∧ ∀ y ∈ xs, y ≤ amax x xs := by
  unfold amax
  induction xs generalizing x with
  | nil => simp
  | cons y ys ih =>
    simp only [List.foldl_cons, List.mem_cons, forall_eq_or_imp]
    obtain ⟨h1, h2⟩ := ih (max x y)
    exact ⟨(le_max_left _ _).trans h1, (le_max_right _ _).trans h1, h2⟩

theorem amin_mem (x : K) (xs : List K) : amin x xs ∈ x :: xs := by
  unfold amin
  induction xs generalizing x with
  | nil => simp
  | cons y ys ih =>
    simp only [List.foldl_cons]
    have := ih (min x y)
    rcases min_choice x y with h | h <;> rw [h] at this ⊢ <;> simp at this ⊢ <;> tauto

theorem amax_mem (x : K) (xs : List K) : amax x xs ∈ x :: xs := by
  unfold amax
  induction xs generalizing x with
  | nil => simp
  | cons y ys ih =>
    simp only [List.foldl_cons]
    have := ih (max x y)
    rcases max_choice x y with h | h <;> rw [h] at this ⊢ <;> simp at this ⊢ <;> tauto

/-- An interpolated value is positive if all tabulated values are. -/
theorem interpFrom_pos (right x : K) (hr : 0 < right) (p : K × K) (rest : List (K × K))
    (hp : p.1 ≤ x) (h : ∀ q ∈ p :: rest, 0 < q.2) :
    0 < AM.interpFrom id right x p rest := by
  induction rest generalizing p with
  | nil =>
    unfold AM.interpFrom
    split
    · exact hr
    · exact h p (by simp)
  | cons q rest ih =>
    unfold AM.interpFrom
    split
    · rename_i hq
      exact ih q hq (fun q' hq' => h q' (by simp at hq' ⊢; tauto))
    · rename_i hq
      push Not at hq
      split
      · exact h p (by simp)
      · simp only [id]
        have h1 : 0 < p.2 := h p (by simp)
        have h2 : 0 < q.2 := h q (by simp)
        have hd : 0 < q.1 - p.1 := by linarith
        have : (q.2 - p.2) / (q.1 - p.1) * (x - p.1) + p.2
            = (q.2 * (x - p.1) + p.2 * (q.1 - x)) / (q.1 - p.1) := by
          field_simp; ring
        rw [this]
        apply div_pos _ hd
        have := mul_nonneg h2.le (sub_nonneg.2 hp)
        have := mul_pos h1 (sub_pos.2 hq)
        linarith

theorem ageNodes_eq (age : K → K) (z : K) (zs : List K) :
    ∃ p ps, ageNodes age z zs = p :: ps ∧ p.1 = amin z zs ∧
      ∀ q ∈ p :: ps, amin z zs ≤ q.1 ∧ q.1 ≤ amax z zs ∧ q.2 = age q.1 := by
  have hle : amin z zs ≤ amax z zs := (amin_le z zs).1.trans (le_amax z zs).1
  have hl : (ageNodes age z zs).length = 50 := by simp [ageNodes, AM.linspace_length]
  rcases hp : ageNodes age z zs with _ | ⟨p, ps⟩
  · rw [hp] at hl; simp at hl
  · have hall : ∀ q ∈ p :: ps, amin z zs ≤ q.1 ∧ q.1 ≤ amax z zs ∧ q.2 = age q.1 := by
      intro q hq
      rw [← hp] at hq
      simp only [ageNodes, List.mem_map] at hq
      obtain ⟨x, hx, rfl⟩ := hq
      have := AM.linspace_bounds _ _ 50 hle x hx
      exact ⟨this.1, this.2, rfl⟩
    refine ⟨p, ps, rfl, ?_, hall⟩
    have h0 : (ageNodes age z zs)[0]? = some p := by rw [hp]; rfl
    simp only [ageNodes, List.getElem?_map] at h0
    rw [AM.linspace_get _ _ _ _ (by norm_num)] at h0
    simp only [Option.map_some, Option.some.injEq] at h0
    rw [← h0]; simp

/-- The ages used, for up to 100 galaxies. -/
theorem ages_few (age : K → K) (zs : List K) (h : zs.length ≤ 100) : ages age zs = zs.map age := by
  unfold ages; rw [if_neg (by omega)]

theorem ages_length (age : K → K) (zs : List K) : (ages age zs).length = zs.length := by
  unfold ages
  split
  · match zs with
    | [] => rfl
    | z :: rest =>
      simp only
      obtain ⟨p, ps, hp, -⟩ := ageNodes_eq age z rest
      rw [hp]; simp
  · simp

theorem ages_pos (age : K → K) (zs : List K) (lo hi : K) (hz : ∀ z ∈ zs, lo ≤ z ∧ z ≤ hi)
    (hage : ∀ z, lo ≤ z → z ≤ hi → 0 < age z) : ∀ a ∈ ages age zs, 0 < a := by
  unfold ages
  split
  · match zs with
    | [] => simp
    | z :: rest =>
      simp only
      obtain ⟨p, ps, hp, h1, h2⟩ := ageNodes_eq age z rest
      rw [hp]
      have hpos : ∀ q ∈ p :: ps, 0 < q.2 := by
        intro q hq
        obtain ⟨a, b, c⟩ := h2 q hq
        rw [c]
        exact hage _ ((hz _ (amin_mem z rest)).1.trans a) (b.trans (hz _ (amax_mem z rest)).2)
      intro a ha
      simp only [List.mem_map] at ha
      obtain ⟨y, hy, rfl⟩ := ha
      have hy' : amin z rest ≤ y := by
        rcases List.mem_cons.1 hy with rfl | hy
        · exact (amin_le _ _).1
        · exact (amin_le _ _).2 _ hy
      unfold AM.interp
      rw [if_neg (by rw [h1]; exact not_lt.2 hy')]
      exact interpFrom_pos _ _ (hpos p (by simp)) _ _ (by rw [h1]; exact hy') hpos
  · intro a ha
    simp only [List.mem_map] at ha
    obtain ⟨z, hz', rfl⟩ := ha
    exact hage _ (hz z hz').1 (hz z hz').2

theorem interpFrom_const (right x a : K) (p : K × K) (rest : List (K × K))
    (h : ∀ q ∈ p :: rest, q = (x, a)) : AM.interpFrom id right x p rest = a := by
  induction rest generalizing p with
  | nil =>
    have := h p (by simp)
    subst this
    simp [AM.interpFrom]
  | cons q rest ih =>
    unfold AM.interpFrom
    have hq := h q (by simp)
    rw [if_pos (by rw [hq])]
    exact ih q (fun q' hq' => h q' (by simp at hq' ⊢; tauto))

/-- Nor does anything happen if all galaxies have the same redshift. -/
theorem ages_equal (age : K → K) (zs : List K) (z0 : K) (h : ∀ z ∈ zs, z = z0) :
    ages age zs = zs.map age := by
  unfold ages
  split
  · match zs with
    | [] => rfl
    | z :: rest =>
      simp only
      obtain ⟨p, ps, hp, h1, h2⟩ := ageNodes_eq age z rest
      rw [hp]
      have hmin : amin z rest = z0 := h _ (amin_mem z rest)
      have hmax : amax z rest = z0 := h _ (amax_mem z rest)
      have hq : ∀ q ∈ p :: ps, q = (z0, age z0) := by
        intro q hq
        obtain ⟨a, b, c⟩ := h2 q hq
        rw [hmin] at a; rw [hmax] at b
        have : q.1 = z0 := le_antisymm b a
        ext <;> simp [this, c]
      apply List.map_congr_left
      intro y hy
      rw [h y hy]
      unfold AM.interp
      rw [if_neg (by rw [h1, hmin]; exact lt_irrefl _)]
      exact interpFrom_const _ _ _ _ _ hq
  · rfl

theorem switched_zipWith (ls : List K) {β : Type} (mask : List β) (off : β → Bool)
    (h : mask.length = ls.length) :
    Switched (fun i => ∃ b, mask[i]? = some b ∧ off b = false) ls
      (List.zipWith (fun b l => if off b then 0 else l) mask ls) := by
  refine ⟨by simp [h], ?_⟩
  intro i x hx
  have hi : i < ls.length := (List.getElem?_eq_some_iff.1 hx).1
  obtain ⟨b, hb⟩ : ∃ b, mask[i]? = some b := ⟨_, List.getElem?_eq_getElem (by omega)⟩
  refine ⟨if off b then 0 else x, by simp [List.getElem?_zipWith, hb, hx], ?_, ?_⟩
  · rintro ⟨b', hb', ho⟩
    rw [hb] at hb'; cases hb'
    simp [ho]
  · intro hn
    have : off b = true := by
      by_contra hc
      exact hn ⟨b, hb, by simpa using hc⟩
    simp [this]

theorem switched_congr {on on' : ℕ → Prop} {b a : List K} (h : Switched on b a)
    (he : ∀ i, i < b.length → (on i ↔ on' i)) : Switched on' b a := by
  refine ⟨h.1, fun i x hx => ?_⟩
  obtain ⟨y, h1, h2, h3⟩ := h.2 i x hx
  have hi := he i (List.getElem?_eq_some_iff.1 hx).1
  exact ⟨y, h1, fun hh => h2 (hi.2 hh), fun hh => h3 (fun h => hh (hi.1 h))⟩

end Verif.Gal
