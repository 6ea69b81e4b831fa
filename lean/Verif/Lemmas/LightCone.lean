import Mathlib.Tactic.Ring
import Mathlib.Tactic.Linarith
import Mathlib.Tactic.FieldSimp
import Mathlib.Data.List.Nodup
import Verif.Model.LightCone
import Verif.Spec.LightCone

set_option linter.unusedSectionVars false

namespace Verif.LC

open Verif.Sim (Err SnapMeta sortByZ getMassIndex)
open Matrix

variable {K : Type} [Field K] [LinearOrder K] [IsStrictOrderedRing K] [FloorRing K]

/-! ## Remainders -/

theorem pymod_eq (x b : K) : ∃ m : ℤ, pymod x b = x + b * m :=
  ⟨-⌊x / b⌋, by unfold pymod; push_cast; ring⟩

theorem pymod_nonneg {b : K} (hb : 0 < b) (x : K) : 0 ≤ pymod x b := by
  unfold pymod
  have h := Int.floor_le (x / b)
  have := mul_le_mul_of_nonneg_left h hb.le
  rw [mul_div_cancel₀ _ hb.ne'] at this
  linarith

theorem pymod_lt {b : K} (hb : 0 < b) (x : K) : pymod x b < b := by
  unfold pymod
  have h := Int.lt_floor_add_one (x / b)
  have := mul_lt_mul_of_pos_left h hb
  rw [mul_div_cancel₀ _ hb.ne', mul_add, mul_one] at this
  linarith

/-- A remainder is determined by its class and its range. -/
theorem pymod_unique {b x y : K} (hb : 0 < b) (m : ℤ) (h : y = x + b * m) (h0 : 0 ≤ y)
    (h1 : y < b) : pymod x b = y := by
  have hf : ⌊x / b⌋ = -m := by
    rw [Int.floor_eq_iff]
    have : x = y - b * m := by rw [h]; ring
    rw [this, sub_div, mul_div_cancel_left₀ _ hb.ne']
    push_cast
    constructor
    · have := div_nonneg h0 hb.le
      linarith
    · have := (div_lt_one hb).2 h1
      linarith
  unfold pymod
  rw [hf, h]
  push_cast
  ring

/-! ## Copies of the box -/

/-- `idx` lists every halo number below `n` with every offset below `c`, each once, in an order
with the halo number equal to the position modulo `n`. -/
structure Copies (n : ℕ) (c : Fin 3 → ℕ) (idx : List (ℕ × (Fin 3 → ℕ))) : Prop where
  len : n ∣ idx.length
  num : ∀ (j : ℕ) (p : ℕ × (Fin 3 → ℕ)), idx[j]? = some p → p.1 = j % n
  nodup : idx.Nodup
  mem : ∀ p, p ∈ idx ↔ p.1 < n ∧ ∀ a, p.2 a < c a

theorem copies_base (n : ℕ) :
    Copies n (fun _ => 1) ((List.range n).map (fun i : ℕ => (i, fun _ => 0))) where
  len := by simp
  num := by
    intro j p h
    rw [List.getElem?_map] at h
    simp only [Option.map_eq_some_iff] at h
    obtain ⟨i, hi, rfl⟩ := h
    obtain ⟨hj, he⟩ := List.getElem?_eq_some_iff.1 hi
    rw [List.getElem_range] at he
    rw [List.length_range] at hj
    simp only
    rw [← he, Nat.mod_eq_of_lt hj]
  nodup := by
    refine List.Nodup.map ?_ List.nodup_range
    intro a b h
    exact (Prod.mk.inj h).1
  mem := by
    intro p
    simp only [List.mem_map, List.mem_range]
    constructor
    · rintro ⟨i, hi, rfl⟩
      exact ⟨hi, fun a => by simp⟩
    · rintro ⟨h1, h2⟩
      refine ⟨p.1, h1, Prod.ext rfl ?_⟩
      funext a
      have := h2 a
      simp only
      omega

/-- The list of numbers and offsets after one more copy along axis `d`. -/
def copyIdx (c : Fin 3 → ℕ) (d : Fin 3) (idx : List (ℕ × (Fin 3 → ℕ))) :
    List (ℕ × (Fin 3 → ℕ)) :=
  idx ++ idx.map (fun p => (p.1, Function.update p.2 d (p.2 d + c d)))

theorem Copies.copy {n : ℕ} {c : Fin 3 → ℕ} {idx : List (ℕ × (Fin 3 → ℕ))}
    (h : Copies n c idx) (d : Fin 3) :
    Copies n (Function.update c d (2 * c d)) (copyIdx c d idx) where
  len := by
    unfold copyIdx
    rw [List.length_append, List.length_map]
    exact dvd_add h.len h.len
  num := by
    intro j p hj
    unfold copyIdx at hj
    by_cases hlt : j < idx.length
    · rw [List.getElem?_append_left hlt] at hj
      exact h.num j p hj
    · rw [List.getElem?_append_right (by omega), List.getElem?_map] at hj
      simp only [Option.map_eq_some_iff] at hj
      obtain ⟨q, hq, rfl⟩ := hj
      have := h.num _ _ hq
      obtain ⟨k, hk⟩ := h.len
      simp only [this]
      have e : j = (j - idx.length) + n * k := by omega
      conv_rhs => rw [e, Nat.add_mul_mod_self_left]
  nodup := by
    unfold copyIdx
    rw [List.nodup_append]
    refine ⟨h.nodup, ?_, ?_⟩
    · refine List.Nodup.map ?_ h.nodup
      intro p q hpq
      obtain ⟨h1, h2⟩ := Prod.mk.inj hpq
      refine Prod.ext h1 ?_
      funext a
      have := congrFun h2 a
      by_cases ha : a = d
      · subst ha
        simp only [Function.update_self] at this
        omega
      · simpa only [Function.update_of_ne ha] using this
    · intro p hp q hq
      rw [List.mem_map] at hq
      obtain ⟨q', _, rfl⟩ := hq
      intro he
      have := ((h.mem p).1 hp).2 d
      rw [he] at this
      simp only [Function.update_self] at this
      omega
  mem := by
    intro p
    unfold copyIdx
    rw [List.mem_append, List.mem_map]
    constructor
    · rintro (hp | ⟨q, hq, rfl⟩)
      · obtain ⟨h1, h2⟩ := (h.mem p).1 hp
        refine ⟨h1, fun a => ?_⟩
        by_cases ha : a = d
        · subst ha
          rw [Function.update_self]
          have := h2 a
          omega
        · rw [Function.update_of_ne ha]; exact h2 a
      · obtain ⟨h1, h2⟩ := (h.mem q).1 hq
        refine ⟨h1, fun a => ?_⟩
        by_cases ha : a = d
        · subst ha
          simp only [Function.update_self]
          have := h2 a
          omega
        · simp only [Function.update_of_ne ha]; exact h2 a
    · rintro ⟨h1, h2⟩
      by_cases hd : p.2 d < c d
      · left
        refine (h.mem p).2 ⟨h1, fun a => ?_⟩
        have := h2 a
        by_cases ha : a = d
        · subst ha; exact hd
        · rwa [Function.update_of_ne ha] at this
      · right
        refine ⟨(p.1, Function.update p.2 d (p.2 d - c d)), ?_, ?_⟩
        · refine (h.mem _).2 ⟨h1, fun a => ?_⟩
          have := h2 a
          by_cases ha : a = d
          · subst ha
            rw [Function.update_self] at this
            simp only [Function.update_self]
            omega
          · rw [Function.update_of_ne ha] at this
            simp only [Function.update_of_ne ha]; exact this
        · refine Prod.ext rfl ?_
          funext a
          by_cases ha : a = d
          · subst ha
            simp only [Function.update_self]
            omega
          · simp only [Function.update_of_ne ha]

/-- The position of halo `p.1` moved by the offset `p.2` in units of the box. -/
def moved (base : List (Vec K)) (box : K) (p : ℕ × (Fin 3 → ℕ)) : Vec K :=
  fun a => (base.getD p.1 (fun _ => 0)) a + box * p.2 a

theorem copyAxis_moved (base : List (Vec K)) (box : K) (c : Fin 3 → ℕ) (d : Fin 3)
    (idx : List (ℕ × (Fin 3 → ℕ))) :
    copyAxis (box * c d) (idx.map (moved base box)) d =
      (copyIdx c d idx).map (moved base box) := by
  unfold copyAxis copyIdx
  rw [List.map_append, List.map_map, List.map_map]
  congr 1
  apply List.map_congr_left
  intro p _
  funext a
  simp only [Function.comp, moved]
  by_cases ha : a = d
  · subst ha
    simp only [Function.update_self]
    push_cast
    ring
  · simp only [Function.update_of_ne ha]
    rfl

/-- What `tileOnce` does to a tiled list. -/
theorem tileOnce_moved {n : ℕ} (base : List (Vec K)) (box : K) (e : ℕ)
    {idx : List (ℕ × (Fin 3 → ℕ))} (h : Copies n (fun _ => e) idx) :
    ∃ idx', Copies n (fun _ => 2 * e) idx' ∧
      tileOnce (box * e) (idx.map (moved base box)) = idx'.map (moved base box) := by
  have h0 := h.copy 0
  have h1 := h0.copy 1
  have h2 := h1.copy 2
  rw [Function.update_of_ne (show (1 : Fin 3) ≠ 0 by decide)] at h1 h2
  rw [Function.update_of_ne (show (2 : Fin 3) ≠ 1 by decide),
    Function.update_of_ne (show (2 : Fin 3) ≠ 0 by decide)] at h2
  have hc : (Function.update (Function.update (Function.update (fun _ : Fin 3 => e) 0 (2 * e)) 1
      (2 * e)) 2 (2 * e)) = fun _ => 2 * e := by
    funext a
    fin_cases a <;> simp [Function.update]
  rw [hc] at h2
  refine ⟨_, h2, ?_⟩
  unfold tileOnce
  simp only [List.foldl_cons, List.foldl_nil]
  have e0 := copyAxis_moved base box (fun _ => e) 0 idx
  rw [e0]
  have e1 := copyAxis_moved base box (Function.update (fun _ => e) 0 (2 * e)) 1
    (copyIdx (fun _ => e) 0 idx)
  rw [Function.update_of_ne (by decide)] at e1
  rw [e1]
  have e2 := copyAxis_moved base box
    (Function.update (Function.update (fun _ => e) 0 (2 * e)) 1 (2 * e)) 2
    (copyIdx (Function.update (fun _ => e) 0 (2 * e)) 1 (copyIdx (fun _ => e) 0 idx))
  rw [Function.update_of_ne (by decide), Function.update_of_ne (by decide)] at e2
  rw [e2]

/-- The tiling used for a snapshot: the list of copied positions and the size of the box. -/
structure IsTiling (st : Settings K) (sky : Sky K) (p : Span K) (halos : List (Halo K))
    (t : Tiling K) (e : ℕ) (idx : List (ℕ × (Fin 3 → ℕ))) : Prop where
  copies : Copies halos.length (fun _ => e) idx
  epos : 0 < e
  positions : t.positions = idx.map (moved (halos.map (·.pos)) st.box)
  box : t.box = st.box * e
  inBox : t.inBox = st.box / maxComp sky.los * e
  count : sliceCount p.use t.inBox p.buf = .ok t.iters

theorem expand_tiling (st : Settings K) (sky : Sky K) (p : Span K) (halos : List (Halo K)) :
    ∀ (left k : ℕ) (t t' : Tiling K), (∃ idx, IsTiling st sky p halos t (2 ^ k) idx) →
      expand p.use p.buf left t = .ok t' →
      0 < t'.iters ∧ ∃ m idx, IsTiling st sky p halos t' (2 ^ m) idx := by
  intro left
  induction left with
  | zero =>
    intro k t t' h0 h
    unfold expand at h
    by_cases h1 : 25 < t.iters ∨ t.iters ≤ 0
    · rw [if_pos h1] at h
      by_cases h2 : t.iters ≤ 0
      · rw [if_pos h2] at h; cases h
      · rw [if_neg h2] at h
        simp only [Except.ok.injEq] at h
        subst h
        exact ⟨not_le.1 h2, k, h0⟩
    · rw [if_neg h1] at h
      simp only [Except.ok.injEq] at h
      subst h
      push Not at h1
      exact ⟨h1.2, k, h0⟩
  | succ left ih =>
    intro k t t' h0 h
    unfold expand at h
    by_cases h1 : 25 < t.iters ∨ t.iters ≤ 0
    · rw [if_pos h1] at h
      rcases hn : sliceCount p.use (t.inBox * 2) p.buf with e | n
      · rw [hn] at h; cases h
      rw [hn] at h
      simp only at h
      refine ih (k + 1) _ t' ?_ h
      obtain ⟨idx, hidx⟩ := h0
      obtain ⟨idx', hc, hm⟩ := tileOnce_moved (halos.map (·.pos)) st.box (2 ^ k) hidx.copies
      refine ⟨idx', ?_⟩
      have e2 : 2 * 2 ^ k = 2 ^ (k + 1) := by rw [pow_succ]; ring
      rw [e2] at hc
      refine ⟨hc, by positivity, ?_, ?_, ?_, hn⟩
      · simp only
        rw [hidx.positions, hidx.box, hm]
      · simp only
        rw [hidx.box]
        push_cast
        ring
      · simp only
        rw [hidx.inBox]
        push_cast
        ring
    · rw [if_neg h1] at h
      simp only [Except.ok.injEq] at h
      subst h
      push Not at h1
      exact ⟨h1.2, k, h0⟩

theorem tiling_ok {st : Settings K} {sky : Sky K} {p : Span K} {halos : List (Halo K)}
    {t : Tiling K} (h : tiling st sky p halos = .ok t) :
    0 < t.iters ∧ ∃ m idx, IsTiling st sky p halos t (2 ^ m) idx := by
  unfold tiling at h
  rcases hs : sliceCount p.use (st.box / maxComp sky.los) p.buf with e | n
  · simp only [hs] at h
    cases h
  · simp only [hs] at h
    refine expand_tiling st sky p halos _ 0 _ t ?_ h
    refine ⟨_, ⟨by simpa using copies_base halos.length, by norm_num, ?_, by simp, by simp, hs⟩⟩
    simp only
    apply List.ext_getElem
    · simp
    · intro i h1 h2
      have h1' : i < halos.length := by simpa using h1
      rw [List.getElem_map, List.getElem_map, List.getElem_map, List.getElem_range]
      funext a
      unfold moved
      simp [h1']

/-! ## Positions -/

/-- The unit vector along the line of sight in the coordinates of a lightcone. -/
def e1 : Vec K := ![1, 0, 0]

/-- The image of a halo at `pos` moved by `k` boxes, before rotation. -/
def image (st : Settings K) (sky : Sky K) (pos : Vec K) (k : Fin 3 → ℤ) : Vec K :=
  fun a => sky.flips a * pos a - sky.start a + st.box * k a

/-- The distance along the line of sight of the corner of the box used for slice `i`. -/
def corner (p : Span K) (iters : ℤ) (i : ℕ) : K := p.start + advance p iters i - p.buf

/-- The two matrices turn the line of sight into the first axis. -/
structure Aligned (sky : Sky K) : Prop where
  los : sky.losM *ᵥ sky.los = e1
  pa : sky.paM *ᵥ (e1 : Vec K) = e1

theorem rotated {sky : Sky K} (h : Aligned sky) (u : Vec K) (c : K) :
    sky.paM *ᵥ (sky.losM *ᵥ (fun a => u a - c * sky.los a)) + ![c, 0, 0] =
      (sky.paM * sky.losM) *ᵥ u := by
  have e : (fun a => u a - c * sky.los a) = u - c • sky.los := by
    funext a
    simp
  rw [e, Matrix.mulVec_sub, Matrix.mulVec_smul, h.los, Matrix.mulVec_sub, Matrix.mulVec_smul, h.pa,
    Matrix.mulVec_mulVec]
  have hc : (![c, 0, 0] : Vec K) = c • e1 := by
    funext a
    fin_cases a <;> simp [e1]
  rw [hc, sub_add_cancel]

/-- Before the rotation, a candidate is an image of its halo, seen from the corner of the box. -/
theorem unrotated {st : Settings K} {sky : Sky K} {p : Span K} {halos : List (Halo K)}
    {t : Tiling K} {e : ℕ} {idx : List (ℕ × (Fin 3 → ℕ))}
    (ht : IsTiling st sky p halos t e idx) (i : ℕ) (pos : Vec K) (off : Fin 3 → ℕ) :
    ∃ k : Fin 3 → ℤ,
      (∀ a, ∃ m : ℤ, k a = sky.flips a * off a + e * m) ∧
      modBox t.box (fun a => shifted sky p t.box (fun b => pos b + st.box * off b) a
        - advance p t.iters i * sky.los a) =
      fun a => image st sky pos k a - corner p t.iters i * sky.los a := by
  have h : ∀ a : Fin 3, ∃ m : ℤ,
      pymod (shifted sky p t.box (fun b => pos b + st.box * off b) a
        - advance p t.iters i * sky.los a) t.box =
      image st sky pos (fun b => sky.flips b * off b + e * m) a
        - corner p t.iters i * sky.los a := by
    intro a
    obtain ⟨m1, h1⟩ := pymod_eq ((pos a + st.box * off a) * sky.flips a) t.box
    obtain ⟨m2, h2⟩ := pymod_eq (shifted sky p t.box (fun b => pos b + st.box * off b) a
        - advance p t.iters i * sky.los a) t.box
    refine ⟨m1 + m2, ?_⟩
    rw [h2]
    unfold shifted image corner
    simp only
    rw [h1, ht.box]
    push_cast
    ring
  choose m hm using h
  refine ⟨fun b => sky.flips b * off b + e * m b, fun a => ⟨m a, rfl⟩, ?_⟩
  funext a
  unfold modBox
  rw [hm a]
  rfl

/-- Conversely, an image whose position seen from the corner lies in the box is what the
candidate with the right offset becomes. -/
theorem unrotated_of_fits {st : Settings K} {sky : Sky K} {p : Span K} {halos : List (Halo K)}
    {t : Tiling K} {e : ℕ} {idx : List (ℕ × (Fin 3 → ℕ))} (hb : 0 < st.box)
    (ht : IsTiling st sky p halos t e idx) (i : ℕ) (pos : Vec K) (off : Fin 3 → ℕ)
    (k : Fin 3 → ℤ) (hk : ∀ a, ∃ m : ℤ, k a = sky.flips a * off a + e * m)
    (h0 : ∀ a, 0 ≤ image st sky pos k a - corner p t.iters i * sky.los a)
    (h1 : ∀ a, image st sky pos k a - corner p t.iters i * sky.los a < t.box) :
    modBox t.box (fun a => shifted sky p t.box (fun b => pos b + st.box * off b) a
        - advance p t.iters i * sky.los a) =
      fun a => image st sky pos k a - corner p t.iters i * sky.los a := by
  have hB : 0 < t.box := by
    rw [ht.box]
    have := ht.epos
    exact mul_pos hb (by exact_mod_cast this)
  funext a
  obtain ⟨m, hm⟩ := hk a
  obtain ⟨m1, hm1⟩ := pymod_eq ((pos a + st.box * off a) * sky.flips a) t.box
  unfold modBox
  refine pymod_unique hB (m - m1) ?_ (h0 a) (h1 a)
  unfold shifted image corner
  simp only
  rw [hm1, hm, ht.box]
  push_cast
  ring

/-! ## The rows of a lightcone -/

/-- What was used for one snapshot. -/
structure Part (K : Type) where
  s : SnapMeta K
  halos : List (Halo K)
  t : Tiling K

/-- The rows of one slice. -/
def sliceRows (st : Settings K) (sky : Sky K) (P : Part K) (i : ℕ) : List (Row K) :=
  (selected st sky (spanOf st sky P.s) P.t i).map
    (rowOf st (spanOf st sky P.s) P.t P.s.index P.halos i)

/-- The rows of one snapshot. -/
def partRows (st : Settings K) (sky : Sky K) (P : Part K) : List (Row K) :=
  (List.range P.t.iters.toNat).flatMap (sliceRows st sky P)

/-- The part was made as in the code. -/
structure Part.Made (st : Settings K) (sky : Sky K) (data : ℕ → SnapData K) (P : Part K) :
    Prop where
  loaded : loaded st (data P.s.index) = .ok P.halos
  tiling : tiling st sky (spanOf st sky P.s) P.halos = .ok P.t

theorem addIndex_append (tab : List (K × ℕ)) (r1 r2 : List (Row K)) :
    addIndex (addIndex tab r1) r2 = addIndex tab (r1 ++ r2) := by
  cases tab with
  | nil => rfl
  | cons e rest =>
    simp only [addIndex, List.map_map]
    congr 1
    apply List.map_congr_left
    intro x _
    simp only [Function.comp, List.countP_append]
    congr 1
    omega

theorem addIndex_nil (tab : List (K × ℕ)) : addIndex tab [] = tab := by
  cases tab with
  | nil => rfl
  | cons e rest => simp [addIndex]

theorem foldl_append (slices : List (List (Row K))) (c : Cone K) :
    slices.foldl Cone.append c = ⟨c.rows ++ slices.flatten, addIndex c.tab slices.flatten⟩ := by
  induction slices generalizing c with
  | nil => simp [addIndex_nil]
  | cons r rest ih =>
    rw [List.foldl_cons, ih]
    simp [Cone.append, addIndex_append]

theorem coneLoop_ok {st : Settings K} {sky : Sky K} {data : ℕ → SnapData K} :
    ∀ {snaps : List (SnapMeta K)} {c c' : Cone K}, coneLoop st sky data snaps c = .ok c' →
      ∃ parts : List (Part K), parts.map (·.s) = snaps ∧ (∀ P ∈ parts, P.Made st sky data) ∧
        c' = ⟨c.rows ++ parts.flatMap (partRows st sky),
              addIndex c.tab (parts.flatMap (partRows st sky))⟩ := by
  intro snaps
  induction snaps with
  | nil =>
    intro c c' h
    simp only [coneLoop, Except.ok.injEq] at h
    subst h
    exact ⟨[], rfl, by simp, by simp [addIndex_nil]⟩
  | cons s rest ih =>
    intro c c' h
    rw [coneLoop] at h
    rcases hl : loaded st (data s.index) with e | halos
    · rw [hl] at h; cases h
    rw [hl] at h
    simp only at h
    rcases hs : snapSlices st sky s halos with e | slices
    · rw [hs] at h; cases h
    rw [hs] at h
    simp only at h
    obtain ⟨parts, h1, h2, h3⟩ := ih h
    unfold snapSlices at hs
    simp only at hs
    rcases ht : tiling st sky (spanOf st sky s) halos with e | t
    · rw [ht] at hs; cases hs
    rw [ht] at hs
    simp only [Except.ok.injEq] at hs
    have hf : slices.flatten = partRows st sky ⟨s, halos, t⟩ := by
      rw [← hs]
      unfold partRows sliceRows
      rw [List.flatMap_def]
    refine ⟨⟨s, halos, t⟩ :: parts, by simp [h1], ?_, ?_⟩
    · intro P hP
      rcases List.mem_cons.1 hP with rfl | hP
      · exact ⟨hl, ht⟩
      · exact h2 P hP
    · rw [h3, foldl_append]
      simp only [List.flatMap_cons, hf, List.append_assoc, addIndex_append]

theorem buildCone_ok {st : Settings K} {sky : Sky K} {metas : List (SnapMeta K)}
    {data : ℕ → SnapData K} {bins : List K} {c : Cone K}
    (h : buildCone st sky metas data bins = .ok c) :
    ∃ parts : List (Part K), parts.map (·.s) = snapsUsed st metas ∧
      (∀ P ∈ parts, P.Made st sky data) ∧
      c.rows = parts.flatMap (partRows st sky) ∧
      c.tab = addIndex (bins.map (fun z => (z, 0))) (parts.flatMap (partRows st sky)) := by
  obtain ⟨parts, h1, h2, h3⟩ := coneLoop_ok h
  subst h3
  exact ⟨parts, h1, h2, by simp, by simp⟩

theorem mem_partRows {st : Settings K} {sky : Sky K} {P : Part K} {r : Row K}
    (h : r ∈ partRows st sky P) :
    ∃ i : ℕ, i < P.t.iters.toNat ∧ ∃ c ∈ selected st sky (spanOf st sky P.s) P.t i,
      r = rowOf st (spanOf st sky P.s) P.t P.s.index P.halos i c := by
  unfold partRows at h
  obtain ⟨i, hi, hr⟩ := List.mem_flatMap.1 h
  unfold sliceRows at hr
  obtain ⟨c, hc, rfl⟩ := List.mem_map.1 hr
  exact ⟨i, List.mem_range.1 hi, c, hc, rfl⟩

theorem mem_selected {st : Settings K} {sky : Sky K} {p : Span K} {t : Tiling K} {i : ℕ}
    {c : Cand K} :
    c ∈ selected st sky p t i ↔ c ∈ candidates st sky p t i ∧ inField st c = true ∧
      c.d < sliceMax p t.iters i ∧ sliceMin p t.iters i ≤ c.d := by
  unfold selected
  rw [List.mem_insertionSort, List.mem_filter]
  simp only [Bool.and_eq_true, decide_eq_true_eq]

theorem mem_candidates {st : Settings K} {sky : Sky K} {p : Span K} {t : Tiling K} {i : ℕ}
    {c : Cand K} :
    c ∈ candidates st sky p t i ↔ ∃ q, t.positions[c.j]? = some q ∧
      c.r = inSlice sky p t i q ∧ c.d = st.root (sumSq (placed p t i c.r)) := by
  unfold candidates
  rw [List.mem_map]
  constructor
  · rintro ⟨q, hq, rfl⟩
    exact ⟨q.1, List.mem_zipIdx_iff_getElem?.1 hq, rfl, rfl⟩
  · rintro ⟨q, hq, hr, hd⟩
    refine ⟨(q, c.j), List.mem_zipIdx_iff_getElem?.2 hq, ?_⟩
    cases c
    simp only at hr hd
    subst hr hd
    rfl

/-- The position vector of a row. -/
def Row.vec (r : Row K) : Vec K := ![r.posZ, r.posX, r.posY]

theorem rowOf_vec (st : Settings K) (p : Span K) (t : Tiling K) (snap : ℕ) (halos : List (Halo K))
    (i : ℕ) (c : Cand K) : (rowOf st p t snap halos i c).vec = placed p t i c.r := by
  unfold Row.vec rowOf placed
  funext a
  fin_cases a
  · simp; ring
  · simp
  · simp

/-! ## Where the objects are -/

theorem cand_image {st : Settings K} {sky : Sky K} {p : Span K} {halos : List (Halo K)}
    {t : Tiling K} {e : ℕ} {idx : List (ℕ × (Fin 3 → ℕ))} (ha : Aligned sky)
    (ht : IsTiling st sky p halos t e idx) {i : ℕ} {c : Cand K}
    (hc : c ∈ candidates st sky p t i) :
    ∃ (halo : Halo K) (off : Fin 3 → ℕ) (k : Fin 3 → ℤ),
      halos[c.j % halos.length]? = some halo ∧ idx[c.j]? = some (c.j % halos.length, off) ∧
      (∀ a, ∃ m : ℤ, k a = sky.flips a * off a + e * m) ∧
      modBox t.box (fun a => shifted sky p t.box (fun b => halo.pos b + st.box * off b) a
        - advance p t.iters i * sky.los a) =
        (fun a => image st sky halo.pos k a - corner p t.iters i * sky.los a) ∧
      c.r = sky.paM *ᵥ (sky.losM *ᵥ
        (fun a => image st sky halo.pos k a - corner p t.iters i * sky.los a)) ∧
      placed p t i c.r = (sky.paM * sky.losM) *ᵥ image st sky halo.pos k := by
  obtain ⟨q, hq, hr, -⟩ := mem_candidates.1 hc
  rw [ht.positions, List.getElem?_map] at hq
  obtain ⟨x, hx, rfl⟩ := Option.map_eq_some_iff.1 hq
  have hnum := ht.copies.num _ _ hx
  have hlt := ((ht.copies.mem x).1 (List.mem_of_getElem? hx)).1
  obtain ⟨halo, hhalo⟩ : ∃ halo, halos[x.1]? = some halo := ⟨_, List.getElem?_eq_getElem hlt⟩
  have hmv : moved (halos.map (·.pos)) st.box x = fun b => halo.pos b + st.box * x.2 b := by
    funext b
    unfold moved
    simp [List.getD, hhalo]
  obtain ⟨k, hk1, hk2⟩ := unrotated ht i halo.pos x.2
  have hr' : c.r = sky.paM *ᵥ (sky.losM *ᵥ
      (fun a => image st sky halo.pos k a - corner p t.iters i * sky.los a)) := by
    rw [hr, hmv]
    unfold inSlice
    rw [hk2]
  refine ⟨halo, x.2, k, by rw [← hnum]; exact hhalo, by rw [← hnum]; exact hx, hk1, hk2, hr', ?_⟩
  unfold placed
  rw [hr']
  exact rotated ha _ _

/-- An image that fits into the box of a slice is among the candidates. -/
theorem image_cand {st : Settings K} {sky : Sky K} {p : Span K} {halos : List (Halo K)}
    {t : Tiling K} {e : ℕ} {idx : List (ℕ × (Fin 3 → ℕ))} (ha : Aligned sky) (hb : 0 < st.box)
    (hf : ∀ a, sky.flips a = 1 ∨ sky.flips a = -1)
    (ht : IsTiling st sky p halos t e idx) {i n : ℕ} {halo : Halo K}
    (hn : halos[n]? = some halo) (k : Fin 3 → ℤ)
    (h0 : ∀ a, 0 ≤ image st sky halo.pos k a - corner p t.iters i * sky.los a)
    (h1 : ∀ a, image st sky halo.pos k a - corner p t.iters i * sky.los a < t.box) :
    ∃ c ∈ candidates st sky p t i, c.j % halos.length = n ∧
      placed p t i c.r = (sky.paM * sky.losM) *ᵥ image st sky halo.pos k := by
  have hlt := (List.getElem?_eq_some_iff.1 hn).1
  have hepos := ht.epos
  let off : Fin 3 → ℕ := fun a => ((sky.flips a * k a) % (e : ℤ)).toNat
  have hoff : ∀ a, ((off a : ℕ) : ℤ) = (sky.flips a * k a) % (e : ℤ) := fun a =>
    Int.toNat_of_nonneg (Int.emod_nonneg _ (by omega))
  have hofflt : ∀ a, off a < e := by
    intro a
    have := Int.emod_lt_of_pos (sky.flips a * k a) (show (0 : ℤ) < e by exact_mod_cast hepos)
    have := hoff a
    omega
  have hk : ∀ a, ∃ m : ℤ, k a = sky.flips a * off a + e * m := by
    intro a
    have h2 := Int.emod_add_mul_ediv (sky.flips a * k a) e
    refine ⟨sky.flips a * (sky.flips a * k a / e), ?_⟩
    rw [hoff a]
    have h3 : sky.flips a * sky.flips a = 1 := by
      rcases hf a with h | h <;> rw [h] <;> norm_num
    calc k a = (sky.flips a * sky.flips a) * k a := by rw [h3, one_mul]
      _ = sky.flips a * (sky.flips a * k a) := by ring
      _ = sky.flips a * (sky.flips a * k a % e + e * (sky.flips a * k a / e)) := by rw [h2]
      _ = _ := by ring
  have hmem := (ht.copies.mem (n, off)).2 ⟨hlt, hofflt⟩
  obtain ⟨j, hj⟩ := List.mem_iff_getElem?.1 hmem
  have hnum := ht.copies.num _ _ hj
  simp only at hnum
  have hmv : moved (halos.map (·.pos)) st.box (n, off) =
      fun b => halo.pos b + st.box * off b := by
    funext b
    unfold moved
    simp [List.getD, hn]
  have hq : t.positions[j]? = some (fun b => halo.pos b + st.box * off b) := by
    rw [ht.positions, List.getElem?_map, hj, Option.map_some, hmv]
  have hu := unrotated_of_fits hb ht i halo.pos off k hk h0 h1
  refine ⟨⟨inSlice sky p t i (fun b => halo.pos b + st.box * off b), j,
      st.root (sumSq (placed p t i (inSlice sky p t i (fun b => halo.pos b + st.box * off b))))⟩,
    mem_candidates.2 ⟨_, hq, rfl, rfl⟩, hnum.symm, ?_⟩
  unfold placed inSlice
  simp only
  rw [hu]
  exact rotated ha _ _

/-! ## Slices -/

theorem advance_mono {p : Span K} {iters : ℤ} (hi : 0 < iters) (hu : 0 ≤ p.use) {i j : ℕ}
    (h : i ≤ j) : advance p iters i ≤ advance p iters j := by
  unfold advance
  have h1 : (0 : K) < iters := by exact_mod_cast hi
  have h2 : (i : K) ≤ j := by exact_mod_cast h
  gcongr

theorem advance_zero (p : Span K) (iters : ℤ) : advance p iters 0 = 0 := by
  simp [advance]

theorem advance_last {p : Span K} {iters : ℤ} (hi : 0 < iters) :
    advance p iters iters.toNat = p.use := by
  unfold advance
  have h1 : ((iters.toNat : ℕ) : K) = (iters : K) := by
    have : ((iters.toNat : ℕ) : ℤ) = iters := Int.toNat_of_nonneg hi.le
    exact_mod_cast congrArg (fun z : ℤ => (z : K)) this
  have h2 : (iters : K) ≠ 0 := by exact_mod_cast hi.ne'
  rw [h1, mul_div_cancel_left₀ _ h2]

/-- The slices are inside the range of the snapshot. -/
theorem slice_bounds {p : Span K} {iters : ℤ} (hi : 0 < iters) (hu : 0 ≤ p.use) (i : ℕ) :
    p.start ≤ sliceMin p iters i ∧ sliceMax p iters i ≤ p.stop := by
  constructor
  · unfold sliceMin
    have := advance_mono hi hu (Nat.zero_le i)
    rw [advance_zero] at this
    linarith
  · exact min_le_right _ _

/-- Later slices are farther away. -/
theorem slice_order {p : Span K} {iters : ℤ} (hi : 0 < iters) (hu : 0 ≤ p.use) {i j : ℕ}
    (h : i < j) : sliceMax p iters i ≤ sliceMin p iters j := by
  unfold sliceMax sliceMin
  refine le_trans (min_le_left _ _) ?_
  have := advance_mono hi hu (show i + 1 ≤ j from h)
  linarith

/-- Each distance is in a slice. -/
theorem slice_exists {p : Span K} {iters : ℤ} (hi : 0 < iters) {d : K}
    (h0 : p.start ≤ d) (h1 : d < p.stop) :
    ∃ i : ℕ, i < iters.toNat ∧ sliceMin p iters i ≤ d ∧ d < sliceMax p iters i := by
  classical
  have hex : ∃ i : ℕ, d < p.start + advance p iters (i + 1) := by
    refine ⟨iters.toNat - 1, ?_⟩
    have : iters.toNat - 1 + 1 = iters.toNat := by omega
    rw [this, advance_last hi]
    unfold Span.use
    linarith
  have hfind := Nat.find_spec hex
  have hmin : ∀ m < Nat.find hex, ¬ d < p.start + advance p iters (m + 1) :=
    fun m hm => Nat.find_min hex hm
  refine ⟨Nat.find hex, ?_, ?_, ?_⟩
  · by_contra hge
    refine hmin (iters.toNat - 1) (by omega) ?_
    have : iters.toNat - 1 + 1 = iters.toNat := by omega
    rw [this, advance_last hi]
    unfold Span.use
    linarith
  · unfold sliceMin
    rcases Nat.eq_zero_or_pos (Nat.find hex) with h | h
    · rw [h, advance_zero]
      linarith
    · have := hmin (Nat.find hex - 1) (by omega)
      rw [show Nat.find hex - 1 + 1 = Nat.find hex by omega] at this
      exact not_lt.1 this
  · exact lt_min hfind h1

end Verif.LC
