import Verif.Props.LightCone

/-!
# Concrete lightcones: the theorems about lightcones apply to them; objects behind the observer
-/

namespace Verif.LC

open Verif.Sim (Err SnapMeta sortByZ getMassIndex)
open Matrix

/-- A square root on the rationals, exact for squares of rationals. -/
def sqrtQ (x : ℚ) : ℚ := (Nat.sqrt x.num.toNat : ℚ) / Nat.sqrt x.den

theorem sqrtQ_sq (x : ℚ) (hx : 0 ≤ x) : sqrtQ (x ^ 2) = x := by
  have hnum : 0 ≤ x.num := Rat.num_nonneg.2 hx
  unfold sqrtQ
  rw [Rat.num_pow, Rat.den_pow, Nat.sqrt_eq']
  have h1 : (x.num ^ 2).toNat = x.num.toNat ^ 2 := by
    obtain ⟨n, hn⟩ := Int.eq_ofNat_of_zero_le hnum
    rw [hn, ← Int.natCast_pow, Int.toNat_natCast, Int.toNat_natCast]
  rw [h1, Nat.sqrt_eq']
  have h2 : ((x.num.toNat : ℕ) : ℚ) = (x.num : ℚ) := by
    have : ((x.num.toNat : ℕ) : ℤ) = x.num := Int.toNat_of_nonneg hnum
    exact_mod_cast congrArg (fun z : ℤ => (z : ℚ)) this
  rw [h2, Rat.num_div_den]

/-- A lightcone from distance `lo` to 20, in a box of 130 (which may be copied once). -/
def exSt (lo : ℚ) : Settings ℚ where
  box := 130
  h := 1
  mode := .circle
  angle := 1 / 10
  aspect := 1
  zlo := lo
  zhi := 20
  dzmin := lo
  dzmax := 20
  minMass := 1
  copiesMax := 2
  root := sqrtQ
  assignZ := id

/-- A line of sight and the matrix the code computes for it. -/
def exSky : Sky ℚ where
  start := fun _ => 13
  flips := ![1, -1, 1]
  los := ![3/13, 4/13, 12/13]
  losM := !![3/13, 4/13, 12/13; 4/5, -3/5, 0; 36/65, 48/65, -5/13]
  paM := 1
  bufCoef := 1/10

/-- Two snapshots. -/
def exMetas : List (SnapMeta ℚ) :=
  [ { index := 7, redshift := 14, zmin := 12, zmax := 20, tstart := 0, tend := 0, dmin := 12,
      dmax := 20, tdmin := 12, tdmax := 20 },
    { index := 9, redshift := 0, zmin := 0, zmax := 12, tstart := 0, tend := 0, dmin := 0,
      dmax := 12, tdmin := 0, tdmax := 12 } ]

/-- Both snapshots have two halos, seen at distances `x` and `y` along the line of sight. -/
def exData (x y : ℚ) : ℕ → SnapData ℚ := fun _ =>
  ⟨[(2, 0), (1/2, 2)], [⟨3/2, fun a => exSky.flips a * (13 + x * exSky.los a)⟩,
    ⟨1, fun a => exSky.flips a * (13 + y * exSky.los a)⟩]⟩

/-- The redshift bins of the examples. -/
def exBins : List ℚ := [0, 6, 14]

/-- Check a property of a lightcone that was built. -/
def built (r : Except Err (Cone ℚ)) (p : Cone ℚ → Bool) : Bool :=
  match r with
  | .ok c => p c
  | .error _ => false

theorem built_ok {r : Except Err (Cone ℚ)} {p : Cone ℚ → Bool} (h : built r p = true) :
    ∃ c, r = .ok c ∧ p c = true := by
  cases r with
  | error e => simp [built] at h
  | ok c => exact ⟨c, rfl, h⟩

theorem ex_los : exSky.losM *ᵥ exSky.los = ![1, 0, 0] := by decide +kernel
theorem ex_pa : exSky.paM *ᵥ ![1, 0, 0] = ![1, 0, 0] := by decide +kernel
theorem ex_rot : Spec.IsRotation (exSky.paM * exSky.losM) := by
  constructor
  · decide +kernel
  · decide +kernel
theorem ex_flips : ∀ a, exSky.flips a = 1 ∨ exSky.flips a = -1 := by decide +kernel
theorem ex_pos : ∀ a, 0 < exSky.los a := by decide +kernel

theorem ex_consistent (lo : ℚ) (h : lo ≤ 20) : Consistent (exSt lo) exMetas id where
  mono := fun _ _ h => h
  dzmin := rfl
  dzmax := rfl
  range := h
  dmin := by decide +kernel
  dmax := by decide +kernel
  zrange := by decide +kernel
  apart := by decide +kernel
  distinct := by decide +kernel

/-- The theorems on C29-C32 apply to a lightcone with objects from both snapshots. -/
example : built (buildCone (exSt 5) exSky exMetas (exData 10 15) exBins) (fun c =>
    decide (c.rows.map (fun r : Row ℚ => (r.snap, r.index, r.posZ, r.mass)) =
      [(9, 0, 10, 3/2), (7, 1, 15, 1)]) && decide (c.tab = [(0, 0), (6, 0), (14, 1)])) = true := by
  decide +kernel

/-- The hypothesis of C30 on the buffer holds for it. -/
example : ∀ s ∈ exMetas, s.tdmax * exSky.bufCoef < max s.dmin (exSt 5).dzmin := by
  decide +kernel

/-- A lightcone so long compared with the box that the box is copied: the halo is also seen in the
next copies of the box.  (C29, C31 and C32 hold for any function in place of the square root; here
it is rounded down.) -/
def exLong : Settings ℚ :=
  { exSt 5 with
    box := 4, angle := 1, zhi := 16, dzmax := 16,
    root := fun x => ((List.range 40).countP (fun k : ℕ => decide (((k : ℚ) + 1) ^ 2 ≤ x)) : ℕ) }

/-- The buffer coefficient for `exLong`. -/
def exSkyLong : Sky ℚ := { exSky with bufCoef := 1 / 9 }
example : built (buildCone exLong exSkyLong exMetas (exData 10 10) exBins) (fun c =>
    decide (c.rows.length = 12)) = true := by
  decide +kernel

/-- C30 as stated: every object is inside the requested geometry, in front of the observer. -/
def C30_full : Prop :=
  ∀ (st : Settings ℚ) (sky : Sky ℚ) (metas : List (SnapMeta ℚ)) (data : ℕ → SnapData ℚ)
    (bins : List ℚ) (c : Cone ℚ) (D : ℚ → ℚ),
    buildCone st sky metas data bins = .ok c → Consistent st metas D → 0 < st.box →
    (∀ x, 0 ≤ x → st.root (x ^ 2) = x) →
    sky.losM *ᵥ sky.los = ![1, 0, 0] → sky.paM *ᵥ ![1, 0, 0] = ![1, 0, 0] →
    Spec.IsRotation (sky.paM * sky.losM) → (∀ a, 0 < sky.los a) →
    (∀ a, sky.flips a = 1 ∨ sky.flips a = -1) →
    ∀ r ∈ c.rows, D st.zlo ≤ r.dist st ∧ r.dist st < D st.zhi ∧
      (st.mode = .circle → Spec.InCircle st.angle (r.dist st)
        (st.root (r.posX ^ 2 + r.posY ^ 2)) r.posZ) ∧
      (st.mode = .box → Spec.InRectangle st.angle (st.angle * st.aspect) r.ra r.dec r.posZ)

theorem ex_behind : built (buildCone (exSt 0) exSky exMetas (exData (-1/2) 15) exBins) (fun c =>
    c.rows.any (fun r => decide (r.posZ = -1/2))) = true := by
  decide +kernel

/-- C30 is false: a lightcone that starts at redshift 0 contains an object half a unit behind the
observer. -/
theorem C30_full_false : ¬ C30_full := by
  intro h
  obtain ⟨c, hc, hp⟩ := built_ok ex_behind
  rw [List.any_eq_true] at hp
  obtain ⟨r, hr, hz⟩ := hp
  have h1 := h (exSt 0) exSky exMetas _ _ c id hc (ex_consistent 0 (by norm_num)) (by decide +kernel)
    sqrtQ_sq ex_los ex_pa ex_rot ex_pos ex_flips r hr
  have h2 := (h1.2.2.1 rfl).1
  rw [of_decide_eq_true hz] at h2
  norm_num at h2

end Verif.LC
