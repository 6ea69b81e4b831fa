import Mathlib.Algebra.Order.Field.Basic
import Mathlib.Algebra.Order.Ring.Rat
import Mathlib.Algebra.BigOperators.Group.List.Basic
import Mathlib.Tactic.FieldSimp
import Mathlib.Tactic.Linarith
import Mathlib.Tactic.NormNum
import Mathlib.Tactic.Ring
import Mathlib.Tactic.Positivity
import Verif.Spec.LCHandler

/-!
# C37: volumes of lightcones
-/

set_option linter.unusedSectionVars false

namespace Verif.LCH

open Spec
open Verif.Handler (Err)

variable {K : Type} [Field K] [LinearOrder K] [IsStrictOrderedRing K]

/-- A successful request: the aperture asked for (or that of the lightcone), the checks passed, and
the result. -/
theorem volume_ok (vc : K → K) (pi : K) (m : Meta K) (a : VolArgs K) (v : K)
    (h : volume vc pi m a = .ok v) :
    ∃ angle aspect, (a.angle = some angle ∨ a.angle = none ∧ m.angle = some angle) ∧
      (a.aspect = some aspect ∨ a.aspect = none ∧ m.aspect = some aspect) ∧
      m.zmin ≤ a.zmin.getD m.zmin ∧ a.zmax.getD m.zmax ≤ m.zmax ∧
      volCheck m (a.shape.getD m.shape) angle aspect = .ok () ∧
      v = (vc (a.zmax.getD m.zmax) - vc (a.zmin.getD m.zmin)) *
        solidAngle pi (a.shape.getD m.shape) angle aspect / (4 * pi) *
        (if a.inH.getD m.inH then m.h ^ 3 else 1) := by
  unfold volume at h
  rcases ha : orMeta a.angle m.angle with e | angle
  · rw [ha] at h; simp at h
  rw [ha] at h; simp only at h
  rcases hb : orMeta a.aspect m.aspect with e | aspect
  · rw [hb] at h; simp at h
  rw [hb] at h; simp only at h
  have key : ∀ (x mm : Option K) (y : K), orMeta x mm = .ok y → x = some y ∨ x = none ∧ mm = some y := by
    intro x mm y hy
    cases x <;> cases mm <;> simp_all [orMeta]
  by_cases h1 : a.zmin.getD m.zmin < m.zmin
  · rw [if_pos h1] at h; simp at h
  rw [if_neg h1] at h
  by_cases h2 : m.zmax < a.zmax.getD m.zmax
  · rw [if_pos h2] at h; simp at h
  rw [if_neg h2] at h
  rcases hc : volCheck m (a.shape.getD m.shape) angle aspect with e | u
  · rw [hc] at h; simp at h
  rw [hc] at h
  simp only [Except.ok.injEq] at h
  refine ⟨angle, aspect, key _ _ _ ha, key _ _ _ hb, not_lt.1 h1, not_lt.1 h2, hc, ?_⟩
  rw [← h]
  split <;> simp

/-- Conversely. -/
theorem volume_of (vc : K → K) (pi : K) (m : Meta K) (a : VolArgs K) (angle aspect : K)
    (ha : a.angle = some angle ∨ a.angle = none ∧ m.angle = some angle)
    (hb : a.aspect = some aspect ∨ a.aspect = none ∧ m.aspect = some aspect)
    (h1 : m.zmin ≤ a.zmin.getD m.zmin) (h2 : a.zmax.getD m.zmax ≤ m.zmax)
    (hc : volCheck m (a.shape.getD m.shape) angle aspect = .ok ()) :
    volume vc pi m a = .ok ((vc (a.zmax.getD m.zmax) - vc (a.zmin.getD m.zmin)) *
        solidAngle pi (a.shape.getD m.shape) angle aspect / (4 * pi) *
        (if a.inH.getD m.inH then m.h ^ 3 else 1)) := by
  have key : ∀ (x mm : Option K) (y : K), (x = some y ∨ x = none ∧ mm = some y) →
      orMeta x mm = .ok y := by
    intro x mm y hy
    cases x <;> cases mm <;> simp_all [orMeta]
  unfold volume
  simp only [key _ _ _ ha, key _ _ _ hb, if_neg (not_lt.2 h1), if_neg (not_lt.2 h2), hc]
  split <;> simp

theorem volCheck_shape (m : Meta K) (sh : LCShape) (angle aspect : K)
    (h : volCheck m sh angle aspect = .ok ()) : sh = .box ∨ sh = .circle := by
  unfold volCheck at h
  by_contra hc
  rw [if_pos hc] at h
  simp at h

/-- C37: what is reported is the volume of the shell between the redshifts times the fraction of the
sky that the aperture covers, in the units asked for. -/
theorem C37_value (vc : K → K) (pi : K) (m : Meta K) (a : VolArgs K) (v : K)
    (h : volume vc pi m a = .ok v) :
    ∃ angle aspect, (a.angle = some angle ∨ a.angle = none ∧ m.angle = some angle) ∧
      (a.aspect = some aspect ∨ a.aspect = none ∧ m.aspect = some aspect) ∧
      v = (vc (a.zmax.getD m.zmax) - vc (a.zmin.getD m.zmin)) *
        (area pi (a.shape.getD m.shape) angle aspect / (4 * pi)) *
        (if a.inH.getD m.inH then m.h ^ 3 else 1) := by
  obtain ⟨angle, aspect, ha, hb, -, -, hc, hv⟩ := volume_ok vc pi m a v h
  refine ⟨angle, aspect, ha, hb, ?_⟩
  rw [hv]
  rcases volCheck_shape m _ angle aspect hc with hs | hs <;> rw [hs] <;>
    simp only [solidAngle, area, if_true, reduceCtorEq, if_false] <;> ring

/-- C37: the volume of a range of redshifts is the sum of the volumes of the parts, for every way to
cut the range. -/
theorem C37_split (vc : K → K) (pi : K) (m : Meta K) (a : VolArgs K) :
    ∀ (zs : List K) (z1 z2 v : K), (z1 :: zs).Pairwise (· ≤ ·) → (z1 :: zs).getLast? = some z2 →
      volume vc pi m { a with zmin := some z1, zmax := some z2 } = .ok v →
      ∃ vs : List K, List.Forall₂ (fun (p : K × K) (w : K) =>
          volume vc pi m { a with zmin := some p.1, zmax := some p.2 } = .ok w)
        ((z1 :: zs).zip zs) vs ∧ vs.sum = v := by
  intro zs
  induction zs with
  | nil =>
    intro z1 z2 v _ hl hv
    simp only [List.getLast?_singleton, Option.some.injEq] at hl
    subst hl
    obtain ⟨angle, aspect, -, -, -, -, -, hv⟩ := volume_ok vc pi m _ v hv
    refine ⟨[], by simp, ?_⟩
    rw [hv]
    simp
  | cons z zs ih =>
    intro z1 z2 v hs hl hv
    have hs' := (List.pairwise_cons.1 hs).2
    have hz1 : z1 ≤ z := (List.pairwise_cons.1 hs).1 z List.mem_cons_self
    have hl' : (z :: zs).getLast? = some z2 := by
      rw [List.getLast?_cons_cons] at hl; exact hl
    have hz2 : z ≤ z2 := by
      have hm : z2 ∈ z :: zs := List.mem_of_getLast? hl'
      rcases List.mem_cons.1 hm with h | h
      · exact h.ge
      · exact (List.pairwise_cons.1 hs').1 _ h
    obtain ⟨angle, aspect, ha, hb, h1, h2, hc, hv⟩ := volume_ok vc pi m _ v hv
    have g1 : m.zmin ≤ z1 := h1
    have g2 : z2 ≤ m.zmax := h2
    have q1 := volume_of vc pi m { a with zmin := some z1, zmax := some z } angle aspect ha hb
      g1 (le_trans hz2 g2 : z ≤ m.zmax) hc
    have q2 := volume_of vc pi m { a with zmin := some z, zmax := some z2 } angle aspect ha hb
      (le_trans g1 hz1 : m.zmin ≤ z) g2 hc
    obtain ⟨vs, r1, r2⟩ := ih z z2 _ hs' hl' q2
    refine ⟨_ :: vs, List.Forall₂.cons q1 r1, ?_⟩
    rw [List.sum_cons, r2, hv]
    simp only [Option.getD_some]
    ring

/-- C37: for redshifts in order (and a sensible aperture) the volume is not negative. -/
theorem C37_nonneg_partial (vc : K → K) (hvc : ∀ x y, x ≤ y → vc x ≤ vc y) (pi : K) (hpi : 0 < pi)
    (m : Meta K) (hh : 0 ≤ m.h) (a : VolArgs K) (v : K) (h : volume vc pi m a = .ok v)
    (hz : a.zmin.getD m.zmin ≤ a.zmax.getD m.zmax)
    (hr : ∀ r, a.aspect = some r ∨ m.aspect = some r → 0 ≤ r) : 0 ≤ v := by
  obtain ⟨angle, aspect, ha, hb, hv⟩ := C37_value vc pi m a v h
  rw [hv]
  have hr' : 0 ≤ aspect := hr aspect (by rcases hb with hb | hb; exact Or.inl hb; exact Or.inr hb.2)
  have e1 := sub_nonneg.2 (hvc _ _ hz)
  have e2 : 0 ≤ area pi (a.shape.getD m.shape) angle aspect := by
    have c1 : 0 ≤ angle * (angle * aspect) := by
      rw [← mul_assoc]; exact mul_nonneg (mul_self_nonneg _) hr'
    have c2 : 0 ≤ pi * angle ^ 2 / 4 := by positivity
    cases a.shape.getD m.shape <;> first | exact c1 | exact c2
  have e3 : (0 : K) ≤ if a.inH.getD m.inH then m.h ^ 3 else 1 := by split <;> positivity
  positivity

/-- C37, against: redshifts in the wrong order are not refused; the result is the negative of the
volume. -/
theorem C37_reversed (vc : K → K) (pi : K) (m : Meta K) (a : VolArgs K) (z1 z2 v : K)
    (h : volume vc pi m { a with zmin := some z1, zmax := some z2 } = .ok v)
    (h1 : m.zmin ≤ z2) (h2 : z1 ≤ m.zmax) :
    volume vc pi m { a with zmin := some z2, zmax := some z1 } = .ok (-v) := by
  obtain ⟨angle, aspect, ha, hb, -, -, hc, hv⟩ := volume_ok vc pi m _ v h
  rw [volume_of vc pi m { a with zmin := some z2, zmax := some z1 } angle aspect ha hb h1 h2 hc, hv]
  simp only [Option.getD_some, Except.ok.injEq]
  ring

/-- C37: redshifts outside the lightcone are refused. -/
theorem C37_refused_redshift (vc : K → K) (pi : K) (m : Meta K) (a : VolArgs K)
    (h : a.zmin.getD m.zmin < m.zmin ∨ m.zmax < a.zmax.getD m.zmax) :
    ∃ e, volume vc pi m a = .error e := by
  rcases hv : volume vc pi m a with e | v
  · exact ⟨e, rfl⟩
  · obtain ⟨_, _, _, _, h1, h2, _⟩ := volume_ok vc pi m a v hv
    rcases h with h | h
    · exact absurd h (not_lt.2 h1)
    · exact absurd h (not_lt.2 h2)

/-- C37: apertures of the shape of the lightcone are refused unless they are contained in it; the
same for circles in rectangular lightcones when the argument `aspect_ratio=1` is given. -/
theorem C37_contained_partial (vc : K → K) (pi : K) (m : Meta K) (a : VolArgs K) (v : K)
    (h : volume vc pi m a = .ok v) (angle aspect : K)
    (ha : a.angle = some angle ∨ a.angle = none ∧ m.angle = some angle) (h0 : 0 ≤ angle)
    (hb : a.aspect = some aspect ∨ a.aspect = none ∧ m.aspect = some aspect)
    (hs : a.shape.getD m.shape = m.shape ∨
      m.shape = .box ∧ a.shape = some .circle ∧ a.aspect = some 1) :
    ∃ A R, m.angle = some A ∧ m.aspect = some R ∧
      ∀ x y, Aperture (a.shape.getD m.shape) angle aspect x y → Aperture m.shape A R x y := by
  obtain ⟨angle', aspect', ha', hb', -, -, hc, -⟩ := volume_ok vc pi m a v h
  have e1 : angle' = angle := by
    rcases ha with ha | ha <;> rcases ha' with ha' | ha' <;> simp_all
  have e2 : aspect' = aspect := by
    rcases hb with hb | hb <;> rcases hb' with hb' | hb' <;> simp_all
  subst e1 e2
  have hsh := volCheck_shape m _ _ _ hc
  unfold volCheck at hc
  rw [if_neg (not_not.2 hsh)] at hc
  have hcond : a.shape.getD m.shape = m.shape ∨ m.shape = .box := by
    rcases hs with hs | hs
    · exact Or.inl hs
    · exact Or.inr hs.1
  rw [if_pos hcond] at hc
  rcases hA : m.angle with _ | A
  · rw [hA] at hc; simp at hc
  rcases hR : m.aspect with _ | R
  · rw [hA, hR] at hc; simp at hc
  rw [hA, hR] at hc
  simp only at hc
  by_cases g1 : A < angle'
  · rw [if_pos g1] at hc; simp at hc
  rw [if_neg g1] at hc
  by_cases g2 : A * R < angle' * aspect'
  · rw [if_pos g2] at hc; simp at hc
  have g1 := not_lt.1 g1
  have g2 := not_lt.1 g2
  refine ⟨A, R, rfl, rfl, ?_⟩
  intro x y hxy
  rcases hs with hs | ⟨hm, hc', ha1⟩
  · rw [hs] at hxy hsh
    rcases hsh with hsh | hsh <;> rw [hsh] at hxy ⊢
    · exact ⟨le_trans hxy.1 (by linarith), le_trans hxy.2 (by linarith)⟩
    · refine le_trans hxy ?_
      exact pow_le_pow_left₀ (by linarith) (by linarith) 2
  · have hasp : aspect' = 1 := by rcases hb with hb | hb <;> simp_all
    subst hasp
    rw [hc'] at hxy
    rw [hm]
    have hxy : x ^ 2 + y ^ 2 ≤ (angle' / 2) ^ 2 := hxy
    have hx : |x| ≤ angle' / 2 :=
      abs_le_of_sq_le_sq (le_trans (by linarith [sq_nonneg y]) hxy) (by linarith)
    have hy : |y| ≤ angle' / 2 :=
      abs_le_of_sq_le_sq (le_trans (by linarith [sq_nonneg x]) hxy) (by linarith)
    exact ⟨le_trans hx (by linarith), le_trans hy (by linarith)⟩

/-- C37, containment: in a circular lightcone at least one radian wide, a rectangle whose volume is
not refused lies inside the lightcone. -/
theorem C37_box_in_circle_partial (vc : K → K) (pi : K) (m : Meta K) (a : VolArgs K) (v : K)
    (h : volume vc pi m a = .ok v) (angle aspect : K)
    (ha : a.angle = some angle ∨ a.angle = none ∧ m.angle = some angle)
    (hb : a.aspect = some aspect ∨ a.aspect = none ∧ m.aspect = some aspect)
    (hs : a.shape = some .box) (hm : m.shape = .circle)
    (A : K) (hA : m.angle = some A) (h1 : 1 ≤ A) :
    ∀ R x y, Aperture .box angle aspect x y → Aperture m.shape A R x y := by
  obtain ⟨angle', aspect', ha', hb', -, -, hc, -⟩ := volume_ok vc pi m a v h
  have e1 : angle' = angle := by
    rcases ha with ha | ha <;> rcases ha' with ha' | ha' <;> simp_all
  have e2 : aspect' = aspect := by
    rcases hb with hb | hb <;> rcases hb' with hb' | hb' <;> simp_all
  subst e1 e2
  have hle : angle' ^ 2 + (angle' * aspect') ^ 2 ≤ A := by
    by_contra hlt
    simp [volCheck, hs, hm, hA, not_le.1 hlt] at hc
  intro R x y hxy
  have hx : x ^ 2 ≤ (angle' / 2) ^ 2 := by
    rw [← sq_abs x]; exact pow_le_pow_left₀ (abs_nonneg x) hxy.1 2
  have hy : y ^ 2 ≤ (angle' * aspect' / 2) ^ 2 := by
    rw [← sq_abs y]; exact pow_le_pow_left₀ (abs_nonneg y) hxy.2 2
  rw [hm]
  show x ^ 2 + y ^ 2 ≤ (A / 2) ^ 2
  nlinarith [mul_le_mul_of_nonneg_left h1 (by linarith : (0 : K) ≤ A)]

/-- C37, against: in every circular lightcone less than one radian wide there are rectangles with
corners outside the lightcone whose volume is not refused (the square of the diagonal is compared
with the diameter). -/
theorem C37_box_sticks_out (vc : K → K) (pi : K) (m : Meta K) (A R : K) (hs : m.shape = .circle)
    (hA : m.angle = some A) (h0 : 0 < A) (h1 : A < 1) :
    (∃ v, volume vc pi m { shape := some .box, angle := some A, aspect := some (1 - A) } = .ok v) ∧
    Aperture .box A (1 - A) (A / 2) (A * (1 - A) / 2) ∧
    ¬ Aperture m.shape A R (A / 2) (A * (1 - A) / 2) := by
  have hp : 0 < A * (1 - A) := mul_pos h0 (by linarith)
  refine ⟨⟨_, volume_of vc pi m _ A (1 - A) (Or.inl rfl) (Or.inl rfl) le_rfl le_rfl ?_⟩, ?_, ?_⟩
  · have hle : A ^ 2 + (A * (1 - A)) ^ 2 ≤ A := by
      have : 0 ≤ A * ((1 - A) * (1 - A + A ^ 2)) :=
        mul_nonneg h0.le (mul_nonneg (by linarith) (by linarith [sq_nonneg A]))
      nlinarith [this]
    simp [volCheck, hs, hA, not_lt.2 hle]
  · exact ⟨by rw [abs_of_pos (by linarith)], by rw [abs_of_pos (by linarith)]⟩
  · rw [hs]
    intro hc
    have hc : (A / 2) ^ 2 + (A * (1 - A) / 2) ^ 2 ≤ (A / 2) ^ 2 := hc
    have : 0 < (A * (1 - A) / 2) ^ 2 := by positivity
    linarith

/-- C37, against: in every rectangular lightcone that is less high than wide, the volume of the circle
as wide as the lightcone is not refused although it sticks out above and below. -/
theorem C37_circle_sticks_out (vc : K → K) (pi : K) (m : Meta K) (A R : K) (hs : m.shape = .box)
    (hA : m.angle = some A) (hR : m.aspect = some R) (h0 : 0 < A) (h1 : R < 1) :
    (∃ v, volume vc pi m { shape := some .circle } = .ok v) ∧
    Aperture .circle A R 0 (A / 2) ∧ ¬ Aperture m.shape A R 0 (A / 2) := by
  refine ⟨⟨_, volume_of vc pi m _ A R (Or.inr ⟨rfl, hA⟩) (Or.inr ⟨rfl, hR⟩) le_rfl le_rfl ?_⟩, ?_, ?_⟩
  · simp [volCheck, hs, hA, hR]
  · simp [Aperture]
  · rw [hs]
    rintro ⟨-, hc⟩
    rw [abs_of_pos (by linarith)] at hc
    have : A * R < A := by nlinarith
    linarith

/-- C37, against: light spheres have no volume by default (`KeyError`), and for explicit arguments
rectangles of any size are accepted. -/
theorem C37_sphere (vc : K → K) (pi : K) (m : Meta K)
    (hs : m.shape = .sphere ∨ m.shape = .hemisphere ∨ m.shape = .quarter ∨ m.shape = .eighth)
    (hA : m.angle = none) :
    (∀ a : VolArgs K, a.angle = none → volume vc pi m a = .error .keyError) ∧
    (∀ angle aspect, ∃ v, volume vc pi m
      { shape := some .box, angle := some angle, aspect := some aspect } = .ok v) := by
  refine ⟨?_, ?_⟩
  · intro a ha
    simp [volume, orMeta, ha, hA]
  · intro angle aspect
    refine ⟨_, volume_of vc pi m _ angle aspect (Or.inl rfl) (Or.inl rfl) le_rfl le_rfl ?_⟩
    rcases hs with hs | hs | hs | hs <;> simp [volCheck, hs]

/-- C37 in full: whatever is accepted is contained in the lightcone and not negative. -/
def C37_full : Prop :=
  ∀ (vc : ℚ → ℚ) (pi : ℚ) (m : Meta ℚ) (a : VolArgs ℚ) (v : ℚ), (∀ x y, x ≤ y → vc x ≤ vc y) →
    0 < pi → 0 < m.h → volume vc pi m a = .ok v → 0 ≤ v ∧
    ∀ angle aspect A R, (a.angle = some angle ∨ a.angle = none ∧ m.angle = some angle) →
      (a.aspect = some aspect ∨ a.aspect = none ∧ m.aspect = some aspect) → 0 ≤ angle →
      m.angle = some A → m.aspect = some R →
      ∀ x y, Aperture (a.shape.getD m.shape) angle aspect x y → Aperture m.shape A R x y

/-- A circular lightcone of half a radian, and a rectangular one. -/
def exCircle : Meta ℚ :=
  { shape := .circle, zmin := 1, zmax := 3, angle := some (1/2), aspect := some 1, h := 1/2, inH := true }

def exBox : Meta ℚ := { exCircle with shape := .box, aspect := some (1/2) }

theorem C37_full_false : ¬ C37_full := by
  intro H
  obtain ⟨⟨v, hv⟩, h1, h2⟩ := C37_box_sticks_out (fun x : ℚ => x) 3 exCircle (1/2) 1 rfl rfl
    (by norm_num) (by norm_num)
  have := (H (fun x => x) 3 exCircle _ v (fun _ _ h => h) (by norm_num) (by norm_num [exCircle]) hv).2
    (1/2) (1 - 1/2) (1/2) 1 (Or.inl rfl) (Or.inl rfl) (by norm_num) rfl rfl _ _ h1
  exact h2 this

/-- Negative volumes: redshifts 2 to 1. -/
example : volume (fun x : ℚ => x) 3 exBox { zmin := some 2, zmax := some 1 } = .ok (-1 / 768) := by
  decide +kernel

example : volume (fun x : ℚ => x) 3 exBox { zmin := some 1, zmax := some 2 } = .ok (1 / 768) := by
  decide +kernel

/-- Splitting the range from 1 to 3. -/
example : ∃ vs : List ℚ, List.Forall₂ (fun (p : ℚ × ℚ) (w : ℚ) =>
      volume (fun x : ℚ => x) 3 exBox { zmin := some p.1, zmax := some p.2 } = .ok w)
    [(1, 5/4), (5/4, 2), (2, 3)] vs ∧ vs.sum = 1 / 384 :=
  C37_split (fun x : ℚ => x) 3 exBox {} [5/4, 2, 3] 1 3 _ (by decide +kernel) rfl
    (by decide +kernel)

example : ∃ e, volume (fun x : ℚ => x) 3 exBox { zmax := some 4 } = .error e :=
  C37_refused_redshift _ _ _ _ (Or.inr (by norm_num [exBox, exCircle]))

/-- A rectangle in a circular lightcone two radians wide. -/
example : ∀ x y, Aperture .box 1 (1/2) x y → Aperture .circle 2 (1 : ℚ) x y :=
  C37_box_in_circle_partial (fun x : ℚ => x) 3 { exCircle with angle := some 2 }
    { shape := some .box, angle := some 1, aspect := some (1/2) } _
    (volume_of _ _ _ _ 1 (1/2) (Or.inl rfl) (Or.inl rfl) le_rfl le_rfl (by decide +kernel)) 1 (1/2)
    (Or.inl rfl) (Or.inl rfl) rfl rfl 2 rfl (by norm_num) 1

/-- A square smaller than the rectangular lightcone. -/
example : ∀ x y, Aperture .box (1/4) 1 x y → Aperture .box (1/2) (1/2 : ℚ) x y := by
  obtain ⟨A, R, hA, hR, H⟩ := C37_contained_partial (fun x : ℚ => x) 3 exBox
    { angle := some (1/4), aspect := some 1 } (1/768) (by decide +kernel) (1/4) 1
    (Or.inl rfl) (by norm_num) (Or.inl rfl) (Or.inl rfl)
  simp only [exBox, exCircle, Option.some.injEq] at hA hR
  subst hA hR
  exact H

example : (∃ v, volume (fun x : ℚ => x) 3 exBox { shape := some .circle } = .ok v) :=
  (C37_circle_sticks_out (fun x : ℚ => x) 3 exBox (1/2) (1/2) rfl rfl rfl (by norm_num)
    (by norm_num)).1

end Verif.LCH
