import Mathlib.Tactic.IntervalCases
import Verif.Props.LCVolume

/-!
# C74: iterating over a set of lightcones
-/

set_option linter.unusedSectionVars false

namespace Verif.LCH

open Spec
open Verif.Handler (Err)

variable {K : Type} [Field K] [LinearOrder K] [IsStrictOrderedRing K]

theorem compareAttr_ok (r : ℕ ⊕ Option K) (require : Bool) :
    ∀ (xs : List (Option (ℕ ⊕ Option K))) (ok c : Bool),
      compareAttr (some r) require xs ok = .ok c →
      (c = true → ok = true ∧ ∀ x ∈ xs, x = some r) ∧ (require = true → c = ok ∧ ∀ x ∈ xs, x = some r) := by
  intro xs
  induction xs with
  | nil =>
    intro ok c h
    simp only [compareAttr, Except.ok.injEq] at h
    subst h
    simp
  | cons x xs ih =>
    intro ok c h
    cases x with
    | none => simp [compareAttr] at h
    | some x =>
      simp only [compareAttr] at h
      by_cases hx : x = r
      · rw [if_neg (by simpa using hx)] at h
        obtain ⟨h1, h2⟩ := ih ok c h
        refine ⟨fun hc => ⟨(h1 hc).1, ?_⟩, fun hr => ⟨(h2 hr).1, ?_⟩⟩
        · intro y hy
          rcases List.mem_cons.1 hy with rfl | hy
          · rw [hx]
          · exact (h1 hc).2 y hy
        · intro y hy
          rcases List.mem_cons.1 hy with rfl | hy
          · rw [hx]
          · exact (h2 hr).2 y hy
      · rw [if_pos hx] at h
        cases require with
        | true => simp at h
        | false =>
          simp only [Bool.false_eq_true, if_false] at h
          obtain ⟨h1, -⟩ := ih false c h
          exact ⟨fun hc => absurd (h1 hc).1 (by simp), by simp⟩

theorem compareAttr_same (r : ℕ ⊕ Option K) (require : Bool) :
    ∀ (xs : List (Option (ℕ ⊕ Option K))) (ok : Bool), (∀ x ∈ xs, x = some r) →
      compareAttr (some r) require xs ok = .ok ok := by
  intro xs
  induction xs with
  | nil => intro ok _; rfl
  | cons x xs ih =>
    intro ok h
    have hx := h x List.mem_cons_self
    subst hx
    simp only [compareAttr, ne_eq, not_true_eq_false, if_false]
    exact ih ok (fun y hy => h y (List.mem_cons_of_mem _ hy))

theorem compareAll_ok (ref : List (Option (ℕ ⊕ Option K)))
    (others : List (List (Option (ℕ ⊕ Option K)))) (require : Bool) :
    ∀ (ks : List ℕ) (ok c : Bool), compareAll ref others require ks ok = .ok c →
      (require = true → c = ok) ∧ (c = true → ok = true ∧ ∀ k ∈ ks, ∃ r, ref[k]? = some (some r) ∧
        ∀ o ∈ others, (o[k]?).getD none = some r) := by
  intro ks
  induction ks with
  | nil =>
    intro ok c h
    simp only [compareAll, Except.ok.injEq] at h
    subst h
    simp
  | cons k ks ih =>
    intro ok c h
    simp only [compareAll] at h
    rcases hk : ref[k]? with _ | x
    · rw [hk] at h; simp at h
    rw [hk] at h
    cases x with
    | none => simp at h
    | some r =>
      simp only at h
      rcases hc : compareAttr (some r) require (others.map (fun o => (o[k]?).getD none)) ok with e | c1
      · rw [hc] at h; simp at h
      rw [hc] at h
      simp only at h
      obtain ⟨g1, g2⟩ := compareAttr_ok r require _ ok c1 hc
      obtain ⟨i1, i2⟩ := ih c1 c h
      refine ⟨fun hr => (i1 hr).trans (g2 hr).1, fun hct => ?_⟩
      obtain ⟨j1, j2⟩ := i2 hct
      obtain ⟨l1, l2⟩ := g1 j1
      refine ⟨l1, ?_⟩
      intro k' hk'
      rcases List.mem_cons.1 hk' with rfl | hk'
      · exact ⟨r, hk, fun o ho => l2 _ (List.mem_map.2 ⟨o, ho, rfl⟩)⟩
      · exact j2 k' hk'

/-- C74: lightcones accepted as a consistent set agree in cosmology, opening angle, aspect ratio and
redshifts. -/
theorem C74_consistent_partial (lcs : List (Attrs K)) (require c : Bool)
    (h : iterInit lcs require = .ok c) (hc : require = true ∨ c = true) :
    ∃ r, lcs.head? = some r ∧ ∀ x ∈ lcs, x.cosmo = r.cosmo ∧ x.info.angle = r.info.angle ∧
      x.info.aspect = r.info.aspect ∧ x.info.zmin = r.info.zmin ∧ x.info.zmax = r.info.zmax := by
  cases lcs with
  | nil => simp [iterInit] at h
  | cons r rest =>
    refine ⟨r, rfl, ?_⟩
    obtain ⟨h1, h2⟩ := compareAll_ok _ _ _ _ _ _ h
    have hct : c = true := by
      rcases hc with hc | hc
      · exact h1 hc
      · exact hc
    obtain ⟨-, h3⟩ := h2 hct
    intro x hx
    rcases List.mem_cons.1 hx with rfl | hx
    · exact ⟨rfl, rfl, rfl, rfl, rfl⟩
    have hx' : compared x ∈ rest.map compared := List.mem_map.2 ⟨x, hx, rfl⟩
    obtain ⟨r0, a0, b0⟩ := h3 0 (by simp)
    obtain ⟨r1, a1, b1⟩ := h3 1 (by simp)
    obtain ⟨r2, a2, b2⟩ := h3 2 (by simp)
    obtain ⟨r3, a3, b3⟩ := h3 3 (by simp)
    obtain ⟨r4, a4, b4⟩ := h3 4 (by simp)
    have b0 := b0 _ hx'
    have b1 := b1 _ hx'
    have b2 := b2 _ hx'
    have b3 := b3 _ hx'
    have b4 := b4 _ hx'
    simp only [compared, List.getElem?_cons_zero, List.getElem?_cons_succ, Option.some.injEq,
      Option.getD_some] at a0 a1 a2 a3 a4 b0 b1 b2 b3 b4
    have hf : hasField r.info = true := by
      by_contra hn
      rw [if_neg hn] at a1
      simp at a1
    have hfx : hasField x.info = true := by
      by_contra hn
      rw [if_neg hn] at b1
      simp at b1
    rw [if_pos hf] at a1 a2
    rw [if_pos hfx] at b1 b2
    subst a0 a3 a4
    simp only [Option.some.injEq] at a1 a2
    subst a1 a2
    simp only [Option.some.injEq, Sum.inl.injEq, Sum.inr.injEq] at b0 b1 b2 b3 b4
    exact ⟨b0, b1, b2, b3, b4⟩

/-- C74: a set built with the same parameters (not of light spheres) is accepted. -/
theorem C74_accepts_partial (r : Attrs K) (rest : List (Attrs K)) (require : Bool)
    (hf : r.info.shape = .circle ∨ r.info.shape = .box)
    (h : ∀ x ∈ rest, x.cosmo = r.cosmo ∧ x.info = r.info) :
    iterInit (r :: rest) require = .ok true := by
  have hfield : hasField r.info = true := by
    rcases hf with hf | hf <;> simp [hasField, hf]
  have hsame : ∀ o ∈ rest.map compared, o = compared r := by
    intro o ho
    obtain ⟨x, hx, rfl⟩ := List.mem_map.1 ho
    obtain ⟨h1, h2⟩ := h x hx
    simp only [compared, h1, h2]
  have key : ∀ (ks : List ℕ), (∀ k ∈ ks, k < 5) →
      compareAll (compared r) (rest.map compared) require ks true = .ok true := by
    intro ks
    induction ks with
    | nil => intro _; rfl
    | cons k ks ih =>
      intro hk
      have hk5 : k < 5 := hk k List.mem_cons_self
      have hex : ∃ y, (compared r)[k]? = some (some y) := by
        simp only [compared, hfield, if_true]
        interval_cases k <;> exact ⟨_, rfl⟩
      obtain ⟨y, hy⟩ := hex
      simp only [compareAll, hy]
      rw [compareAttr_same]
      · exact ih (fun k' hk' => hk k' (List.mem_cons_of_mem _ hk'))
      · intro x hx
        obtain ⟨o, ho, rfl⟩ := List.mem_map.1 hx
        rw [hsame o ho, hy]
        rfl
  exact key _ (fun k hk => List.mem_range.1 hk)

/-- C74, against: no set of light spheres can be iterated. -/
theorem C74_sphere_never (r : Attrs K) (rest : List (Attrs K)) (require : Bool)
    (hs : r.info.shape = .sphere ∨ r.info.shape = .hemisphere ∨ r.info.shape = .quarter ∨
      r.info.shape = .eighth)
    (hcos : ∀ x ∈ rest, x.cosmo = r.cosmo) :
    iterInit (r :: rest) require = .error .attributeError := by
  have hfield : hasField r.info = false := by
    rcases hs with hs | hs | hs | hs <;> simp [hasField, hs]
  have h5 : List.range 5 = [0, 1, 2, 3, 4] := rfl
  simp only [iterInit, h5, compareAll]
  have h0 : (compared r)[0]? = some (some (.inl r.cosmo)) := rfl
  have h1 : (compared r)[1]? = some none := by simp [compared, hfield]
  rw [h0]
  simp only
  rw [compareAttr_same]
  · simp only [h1]
  · intro x hx
    simp only [List.map_map, List.mem_map, Function.comp_apply] at hx
    obtain ⟨y, hy, rfl⟩ := hx
    simp [compared, hcos y hy]

/-- C74, against: the shape is not compared: circular and rectangular lightcones with the same
numbers make a consistent set, and the volume reported for every one of them is that of
the first. -/
theorem C74_shape_ignored (r x : Attrs K) (require : Bool) (hr : r.info.shape = .circle)
    (hx : x = { r with info := { r.info with shape := .box } }) (vc : K → K) (pi : K) :
    iterInit [r, x] require = .ok true ∧
    iterVolume vc pi [r, x] true {} = volume vc pi r.info {} := by
  refine ⟨?_, rfl⟩
  subst hx
  simp [iterInit, List.range_succ, compareAll, compareAttr, compared, hasField, hr]

/-- C74 in full: lightcones of an accepted set agree in the volume reported. -/
def C74_full : Prop :=
  ∀ (vc : ℚ → ℚ) (pi : ℚ) (lcs : List (Attrs ℚ)) (v : ℚ), iterInit lcs true = .ok true →
    iterVolume vc pi lcs true {} = .ok v → ∀ x ∈ lcs, volume vc pi x.info {} = .ok v

theorem C74_full_false : ¬ C74_full := by
  intro H
  have h1 := (C74_shape_ignored ⟨0, exCircle⟩ _ true rfl rfl (fun x : ℚ => x) 3).1
  have h2 := H (fun x : ℚ => x) 3 _ (1/256) h1 (by decide +kernel) _
    (List.mem_cons_of_mem _ List.mem_cons_self)
  exact absurd h2 (by decide +kernel)

example : iterInit [⟨0, exBox⟩, ⟨0, exBox⟩, ⟨0, exBox⟩] true = .ok true :=
  C74_accepts_partial ⟨0, exBox⟩ _ true (Or.inr rfl) (by
    intro x hx
    simp only [List.mem_cons, List.not_mem_nil, or_false] at hx
    rcases hx with rfl | rfl <;> exact ⟨rfl, rfl⟩)

example : iterInit [⟨0, exBox⟩, ⟨0, { exBox with zmax := 4 }⟩] true = .error .valueError := by
  decide +kernel

example : iterInit [⟨0, exBox⟩, ⟨0, { exBox with zmax := 4 }⟩] false = .ok false := by
  decide +kernel

example : iterInit [⟨0, { exBox with shape := .eighth, angle := none, aspect := none }⟩] true =
    .error .attributeError :=
  C74_sphere_never _ [] true (Or.inr (Or.inr (Or.inr rfl))) (by simp)

end Verif.LCH
