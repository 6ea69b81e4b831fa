import Verif.Spec.ConeObserve
import Verif.Props.Observe
import Verif.Props.LCMap

set_option linter.unusedSectionVars false

/-!
# Grids made from catalogues: what `Gridder` sets besides the cells, and sums over objects
-/

namespace Verif.Map

open Verif.Sim (Err)
open Spec

variable {K V : Type} [Field K] [LinearOrder K] [IsStrictOrderedRing K] [FloorRing K]

/-- What a new grid without units has besides its cells. -/
structure Plain (g : Grid K V) (m d : ℕ) (S P : NArr K) : Prop where
  map : g.isPow = false
  axunits : g.axunits = List.replicate d none
  faxunits : g.faxunits = List.replicate d none
  gridunits : g.gridunits = List.replicate m none
  side : S.isInt = false → g.side.isInt = false
  pix : g.pix = P

theorem new_plain (m : ℕ) (c s pix : NArr K) (g : Grid K V) (h : Grid.new m c s pix none none = .ok g) :
    ∃ S P, spreadSide s c.vals.length = .ok S ∧ spreadPix pix c.vals.length = .ok P ∧
      Plain g m c.vals.length S P ∧ g.center = c := by
  unfold Grid.new at h
  simp only [spreadUnits] at h
  rcases hS : spreadSide s c.vals.length with e | S
  · rw [hS] at h; cases h
  rw [hS] at h
  simp only at h
  rcases hP : spreadPix pix c.vals.length with e | P
  · rw [hP] at h; cases h
  rw [hP] at h
  simp only at h
  split at h
  · cases h
  rename_i ns _
  split at h
  · cases h
  simp only [Except.ok.injEq] at h
  subst h
  refine ⟨S, P, rfl, rfl, ⟨rfl, rfl, by simp, rfl, ?_, rfl⟩, rfl⟩
  intro hi
  simp only
  split
  · exact hi
  · rfl

theorem spreadSide_three (s : NArr K) (h : s.vals.length = 3) : spreadSide s 3 = .ok s := by
  obtain ⟨b, l⟩ := s
  match l, h with
  | [x, y, z], _ => rfl

variable [AddCommMonoid V] [One V]

theorem addFromCat_rest (g g' : Grid K V) (P : Pos K) (v : Option (Vals V)) (ps : Option (List ℕ))
    (h : g.addFromCat P v false ps = (g', .ok ())) : ∃ a n, g' = { g with grid := a, nObj := n } := by
  unfold Grid.addFromCat at h
  rcases hg : g.grid with _ | a
  · rw [hg] at h; cases h
  rw [hg] at h
  simp only [Bool.and_false, Bool.false_eq_true, if_false] at h
  split_ifs at h with c1 c2 c3 c4 c5 c6
  all_goals first
    | (simp only [Prod.mk.injEq, reduceCtorEq, and_false] at h; done)
    | (simp only [Prod.mk.injEq, and_true] at h; subst h; exact ⟨g.grid, g.nObj, rfl⟩)
    | skip
  rcases hc : g.checkProps ps with e | qs
  · rw [hc] at h; cases h
  rw [hc] at h
  simp only at h
  split_ifs at h
  · cases h
  split at h
  · cases h
  · cases h
    exact ⟨_, _, rfl⟩

theorem gridder_plain (P : Pos K) (v : Vals V) (c s pix : NArr K) (g : Grid K V)
    (h : gridder P (some v) (some c) (some s) pix = .ok g) (hc : c.vals.length = 3) (hs : s.vals.length = 3) :
    ∃ Q, spreadPix pix 3 = .ok Q ∧ Plain g v.cols 3 s Q ∧ g.center = c := by
  unfold gridder at h
  rcases hd : gridderDims P.rows none with e | d
  · simp only [hd] at h; cases h
  simp only [hd, Option.getD_some] at h
  split_ifs at h
  simp only [gridderCenter] at h
  by_cases hcd : c.vals.length = d
  · simp only [if_pos hcd] at h
    rcases hsd : gridderSide P.rows d (some s) with e | S
    · simp only [hsd] at h; cases h
    simp only [hsd] at h
    have hS : S = s := by
      unfold gridderSide at hsd
      rw [← hcd, hc] at hsd
      simp only [spreadSide_three s hs] at hsd
      cases hsd
      rfl
    subst hS
    rcases hn : (Grid.new v.cols c S pix none none : Except Err (Grid K V)) with e | g0
    · simp only [hn] at h; cases h
    simp only [hn] at h
    split at h
    · cases h
    rename_i g' ha
    simp only [Except.ok.injEq] at h
    subst h
    obtain ⟨S', Q, h1, h2, h3, h4⟩ := new_plain _ _ _ _ g0 hn
    obtain ⟨a, n, rfl⟩ := addFromCat_rest _ _ _ _ _ ha
    have hS' : S' = S := by
      rw [hc, spreadSide_three S hs] at h1
      cases h1
      rfl
    subst hS'
    rw [hc] at h2 h3
    exact ⟨Q, h2, ⟨h3.map, h3.axunits, h3.faxunits, h3.gridunits, h3.side, h3.pix⟩, h4⟩
  · simp only [if_neg hcd] at h; cases h

end Verif.Map

namespace Verif.HGrid

open Verif.Handler (V)
open Verif.Map Verif.Map.Spec
open Verif.HGrid.Spec

variable {K : Type} [Field K] [LinearOrder K] [IsStrictOrderedRing K] [FloorRing K]

/-- What a map of a catalogue has besides its cells. -/
theorem finish_plain (pos : List (List K)) (props : List (List (V K))) (hne : props ≠ []) (center side : List K)
    (ints : Bool) (res : Option (NArr K)) (norm : Norm K) (g : Grid K (WithTop K))
    (h : finish pos props center side ints res norm = .ok g) (hc : center.length = 3) (hs : side.length = 3) :
    ∃ Q, spreadPix (res.getD ⟨false, side.map (· / 100)⟩) 3 = .ok Q ∧
      Plain g props.length 3 ⟨ints, side⟩ Q ∧ g.center = ⟨false, center⟩ := by
  unfold finish at h
  simp only [if_neg hne] at h
  split at h
  · cases h
  rename_i g0 hg
  simp only [Except.ok.injEq] at h
  subst h
  obtain ⟨Q, h1, h2, h3⟩ := gridder_plain _ _ _ _ _ g0 hg hc hs
  exact ⟨Q, h1, ⟨h2.map, h2.axunits, h2.faxunits, h2.gridunits, h2.side, h2.pix⟩, h3⟩

/-- What a map of a lightcone has besides its cells. -/
theorem lcGrid_plain (s : Verif.Handler.State K) (m : Verif.LCH.Meta K) (names : List Verif.Handler.Name)
    (hn : names ≠ []) (freq : Option K) (inH : Option Bool) (useAll : Bool) (res ralim declim zlim : Option (NArr K))
    (norm : Option K) (g : Grid K (WithTop K))
    (h : lcGrid s m names freq inH useAll res ralim declim zlim norm = some (.ok g)) :
    ∃ center side Q, center.length = 3 ∧ side.length = 3 ∧
      spreadPix (res.getD ⟨false, side.map (· / 100)⟩) 3 = .ok Q ∧
      Plain g names.length 3 ⟨intLimits [ralim, declim, zlim], side⟩ Q ∧ g.center = ⟨false, center⟩ := by
  unfold lcGrid at h
  simp only at h
  split at h
  · cases h
  rename_i pos props hr
  split at h
  · cases h
  rename_i lims hl
  split at h
  · cases h
  rename_i cl hcl
  split at h
  · cases h
  rename_i rows _
  simp only [Option.some.injEq] at h
  have h3 : lims.length = 3 := by
    unfold lcLimits at hl
    split at hl
    · cases hl
    split at hl
    · cases hl
    cases hl
    rfl
  have h3' : cl.length = 3 := by rw [mapE_length hcl, h3]
  have hp : props.length = names.length := by
    unfold readAll at hr
    split at hr
    · cases hr
    split at hr
    · cases hr
    rename_i hm
    cases hr
    exact mapE_length hm
  have hpn : props ≠ [] := by
    intro e
    rw [e] at hp
    exact hn (List.length_eq_zero_iff.1 hp.symm)
  obtain ⟨Q, e1, e2, e3⟩ := finish_plain _ _ hpn _ _ _ _ _ g h (by simp [h3']) (by simp [h3'])
  rw [hp] at e2
  exact ⟨_, _, Q, by simp [h3'], by simp [h3'], e1, e2, e3⟩

end Verif.HGrid

namespace Verif.Inst

open Spec
open Verif.Map (Grid Arr)
open Verif.Map.Spec (freq Reaches away smeared weightedMean cell InCell cellSum)

variable {F D T S K : Type} [_root_.Field K] [LinearOrder K] [IsStrictOrderedRing K] [FloorRing K]

/-- A number is in at most one cell. -/
theorem inSpan_unique (n : ℕ) (w c x : K) (i j : ℕ) (hw : 0 < w) (hi : InSpan n w c x i) (hj : InSpan n w c x j) :
    i = j := by
  obtain ⟨-, a1, a2⟩ := hi
  obtain ⟨-, b1, b2⟩ := hj
  by_contra hne
  rcases Nat.lt_or_gt_of_ne hne with h | h
  · have : (i : K) + 1 ≤ j := by exact_mod_cast h
    have := mul_le_mul_of_nonneg_right this hw.le
    linarith
  · have : (j : K) + 1 ≤ i := by exact_mod_cast h
    have := mul_le_mul_of_nonneg_right this hw.le
    linarith

theorem sum_one {α : Type} [DecidableEq α] (l : List α) (hl : l.Nodup) (p : α → Prop) [DecidablePred p] (f : α → K)
    (hp : ∀ a b, p a → p b → a = b) :
    (l.map (fun a => if p a then f a else 0)).sum = (l.find? (fun a => p a)).elim 0 f := by
  induction l with
  | nil => rfl
  | cons a l ih =>
    rw [List.map_cons, List.sum_cons, List.find?_cons]
    by_cases ha : p a
    · have hz : (l.map (fun a => if p a then f a else 0)).sum = 0 := by
        apply List.sum_eq_zero
        intro x hx
        obtain ⟨b, hb, rfl⟩ := List.mem_map.1 hx
        have : ¬ p b := by
          intro h
          have := hp a b ha h
          subst this
          exact (List.nodup_cons.1 hl).1 hb
        simp [this]
      simp [ha, hz]
    · simp only [ha, if_false, zero_add, decide_false]
      exact ih (List.nodup_cons.1 hl).2

theorem sum_place (n : ℕ) (w c x : K) (hw : 0 < w) (f : ℕ → K) :
    ((List.range n).map (fun i => if InSpan n w c x i then f i else 0)).sum = (spot n w c x).elim 0 f :=
  sum_one _ List.nodup_range _ f (fun i j hi hj => inSpan_unique n w c x i j hw hi hj)

section
variable (R : K → K → K → K) (W : K → K) (N : ℕ → K) (nx ny nz m n : ℕ) (wx wy wz cx cy cz : K) (i j : ℕ)

/-- The sum over the channels of a smeared sky. -/
def smearedSum (v : ℕ → ℕ → ℕ → K) : K :=
  ((List.range nz).map (fun k => W (freq nz wz cz k) *
    ((List.range nx).map (fun i' => ((List.range ny).map (fun j' =>
      if Reaches m i i' ∧ Reaches n j j' then
        v i' j' k * (R (away m i i' * wx) (away n j j' * wy) (freq nz wz cz k) / N k)
      else 0)).sum)).sum)).sum

theorem smearedSum_add (v v' : ℕ → ℕ → ℕ → K) :
    smearedSum R W N nx ny nz m n wx wy wz cz i j (fun a b c => v a b c + v' a b c) =
      smearedSum R W N nx ny nz m n wx wy wz cz i j v + smearedSum R W N nx ny nz m n wx wy wz cz i j v' := by
  unfold smearedSum
  rw [← List.sum_map_add]
  congr 1
  refine List.map_congr_left (fun k _ => ?_)
  rw [← mul_add, ← List.sum_map_add]
  congr 2
  refine List.map_congr_left (fun i' _ => ?_)
  rw [← List.sum_map_add]
  congr 1
  refine List.map_congr_left (fun j' _ => ?_)
  split_ifs
  · ring
  · simp

theorem smearedSum_mul (q : K) (v : ℕ → ℕ → ℕ → K) :
    smearedSum R W N nx ny nz m n wx wy wz cz i j (fun a b c => q * v a b c) =
      q * smearedSum R W N nx ny nz m n wx wy wz cz i j v := by
  unfold smearedSum
  rw [← List.sum_map_mul_left]
  congr 1
  refine List.map_congr_left (fun k _ => ?_)
  rw [mul_left_comm]
  congr 1
  rw [← List.sum_map_mul_left]
  congr 1
  refine List.map_congr_left (fun i' _ => ?_)
  rw [← List.sum_map_mul_left]
  congr 1
  refine List.map_congr_left (fun j' _ => ?_)
  split_ifs
  · ring
  · simp

theorem smearedSum_zero : smearedSum R W N nx ny nz m n wx wy wz cz i j (fun _ _ _ => 0) = 0 := by
  have := smearedSum_mul R W N nx ny nz m n wx wy wz cz i j 0 (fun _ _ _ => 0)
  simpa using this

/-- Of one object. -/
theorem smearedSum_one (hx : 0 < wx) (hy : 0 < wy) (hz : 0 < wz) (o : Source K) :
    smearedSum R W N nx ny nz m n wx wy wz cz i j
        (fun a b c => if InSpan nx wx cx o.x a ∧ InSpan ny wy cy o.y b ∧ InSpan nz wz cz o.z c then o.v else 0) =
      share R W N nx ny nz m n wx wy wz cx cy cz i j o := by
  have h1 : ∀ k, ((List.range nx).map (fun i' => ((List.range ny).map (fun j' =>
      if Reaches m i i' ∧ Reaches n j j' then
        (if InSpan nx wx cx o.x i' ∧ InSpan ny wy cy o.y j' ∧ InSpan nz wz cz o.z k then o.v else 0) *
          (R (away m i i' * wx) (away n j j' * wy) (freq nz wz cz k) / N k)
      else 0)).sum)).sum =
      if InSpan nz wz cz o.z k then (spot nx wx cx o.x).elim 0 (fun i' => (spot ny wy cy o.y).elim 0 (fun j' =>
        if Reaches m i i' ∧ Reaches n j j' then
          o.v * (R (away m i i' * wx) (away n j j' * wy) (freq nz wz cz k) / N k) else 0)) else 0 := by
    intro k
    by_cases hk : InSpan nz wz cz o.z k
    · rw [if_pos hk, ← sum_place nx wx cx o.x hx]
      congr 1
      refine List.map_congr_left (fun i' _ => ?_)
      by_cases hi : InSpan nx wx cx o.x i'
      · rw [if_pos hi, ← sum_place ny wy cy o.y hy]
        congr 1
        refine List.map_congr_left (fun j' _ => ?_)
        by_cases hj : InSpan ny wy cy o.y j' <;> simp [hi, hj, hk]
      · rw [if_neg hi]
        apply List.sum_eq_zero
        intro x hx'
        obtain ⟨b, _, rfl⟩ := List.mem_map.1 hx'
        simp [hi]
    · rw [if_neg hk]
      apply List.sum_eq_zero
      intro x hx'
      obtain ⟨a, _, rfl⟩ := List.mem_map.1 hx'
      apply List.sum_eq_zero
      intro x hx'
      obtain ⟨b, _, rfl⟩ := List.mem_map.1 hx'
      simp [hk]
  unfold smearedSum share
  simp only [h1, mul_ite, mul_zero]
  rw [sum_place nz wz cz o.z hz]
  rcases spot nx wx cx o.x with _ | i' <;> rcases spot ny wy cy o.y with _ | j' <;>
    rcases spot nz wz cz o.z with _ | k <;> simp

/-- Of all objects. -/
theorem smearedSum_all (hx : 0 < wx) (hy : 0 < wy) (hz : 0 < wz) (objs : List (Source K)) :
    smearedSum R W N nx ny nz m n wx wy wz cz i j (fun a b c =>
        ((objs.filter (fun o => InSpan nx wx cx o.x a ∧ InSpan ny wy cy o.y b ∧ InSpan nz wz cz o.z c)).map
          Source.v).sum) =
      (objs.map (share R W N nx ny nz m n wx wy wz cx cy cz i j)).sum := by
  induction objs with
  | nil => exact smearedSum_zero R W N nx ny nz m n wx wy wz cz i j
  | cons o objs ih =>
    rw [List.map_cons, List.sum_cons, ← ih,
      ← smearedSum_one R W N nx ny nz m n wx wy wz cx cy cz i j hx hy hz o, ← smearedSum_add]
    congr 1
    funext a b c
    rw [List.filter_cons]
    split_ifs with h1 h2 h2
    · simp
    · simp at h1; exact absurd h1 (by simpa using h2)
    · simp at h1; exact absurd h2 (by simpa using h1)
    · simp

end

end Verif.Inst
