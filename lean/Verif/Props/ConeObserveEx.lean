import Verif.Props.ConeObserve
import Verif.Props.LCMapEx

set_option linter.unusedSectionVars false

/-!
# C127: an example, and why the units are not checked
-/

namespace Verif.Inst

open Spec
open Verif.Handler.Spec (selection)
open Verif.HGrid (lcGrid)
open Verif.LC (Row mapSt mapBuild mapSim map_opened coneMeta)
open Verif.Map (Grid Arr BeamNorm PadArg NArr)
open Verif.Map.Spec (freq)

/-- An instrument that measures angles in degrees and frequencies in metres. -/
def degSetup : Setup Unit Unit ℚ := ⟨{}, {}, {}, none, none, some "deg", some "m", some "Jy"⟩

/-- One detector, pointed straight. -/
def degOps : List (Op Unit Unit (Point ℚ) (Grid ℚ ℚ) (Arr ℚ) (Grid ℚ ℚ) ℚ (BeamNorm × PadArg)) :=
  [.addDetector { name := some "a", spatial := .fn (), spectral := .fn (), noise := .fn (),
                  offsets := .pair ⟨false, 0, 0⟩ }]

def degState : State Unit Unit (Point ℚ) (Grid ℚ ℚ) (Arr ℚ) (Grid ℚ ℚ) ℚ := run (grids flatLib) (fresh degSetup) degOps

theorem degState_facts : degState.detNames = ["a"] ∧
    degState.detectors = [("a", ⟨some ⟨(), ()⟩, some ⟨(), ()⟩, some ⟨(), ()⟩, ⟨false, 0, 0⟩⟩)] ∧
    degState.fields = [] ∧ degState.bestSpatial = none ∧ degState.bestSpectral = none :=
  ⟨by rfl, by rfl, by rfl, by rfl, by rfl⟩

theorem deg_equipped (f : Name) (nz : ℕ) (hnz : nz ≠ 0) (wx wy wz cz : ℚ) (ps : List (Point ℚ)) :
    Equipped flatLib degState f nz 3 3 wx wy wz cz .peak .none (fun _ _ _ _ => 1) (fun _ _ => 1)
      (fun _ => List.replicate ps.length 0) { positions := ps, withNoise := false, seed := fun _ _ => () } := by
  obtain ⟨h1, h2, -⟩ := degState_facts
  refine ⟨by rw [h1]; simp, ?_, by decide, by decide, by decide, ?_, .inl rfl, ?_, rfl, rfl, ?_, ?_⟩
  · intro d hd det hdet
    rw [h2] at hdet
    rw [h1] at hd
    simp only [List.mem_cons, List.not_mem_nil, or_false] at hd
    subst hd
    simp [PyDict.get?] at hdet
    subst hdet
    exact ⟨⟨_, rfl, Map.flatBeam_responds⟩, ⟨_, rfl, Map.flatBand_weights⟩⟩
  · intro d _ k _ N hN
    exact Map.flat_peak _ _ _ _ _ N hN
  · intro d _
    simpa using hnz
  · intro h; cases h
  · intro d _
    refine ⟨?_, by simp⟩
    unfold Noise
    rw [if_neg (by simp)]
    simp only [List.map_replicate]
    rfl

/-- The map of the lightcone with two objects, in three by three cells and three channels, is observed: pointed at the
middle, the detector reads a third of the sum of both, each of them being in one of the three channels. -/
example : ∃ hd g sky s1 s2 v, LC.openCone mapSim ((mapBuild 1).1 0) (1 / 2) true [] = .ok hd ∧
    lcGrid hd (coneMeta (mapSt 1) (1 / 2) true) ["mass"] none (some true) false (some ⟨false, [1 / 5, 1 / 5, 5]⟩) =
      some (.ok g) ∧ (plainGrid g).grid = some sky ∧
    addField degState { grid := asField (plainGrid g) sky, name := some "sky" } = (s1, .ok "sky") ∧
    mapFields (grids flatLib) s1 ["sky"] { kernel := some (.pair 3 3), opts := (.peak, .none) } = (s2, .ok ()) ∧
    sampleFields (grids flatLib) s2 ["sky"]
      { positions := [⟨false, 0, 0⟩], withNoise := false, seed := fun _ _ => () } = .ok [("sky", [[v]])] ∧
    v = some (5 / 6) := by
  obtain ⟨c, f, hd, g1, g2, g3, g4, g5, g6, g7, g8, g9, g10⟩ := map_opened 1 (Or.inl rfl)
  obtain ⟨r1, r2, hr⟩ : ∃ r1 r2, c.rows = [r1, r2] := by
    have hl : c.rows.length = 2 := by
      have := congrArg List.length g9
      simpa using this
    exact List.length_eq_two.1 hl
  rw [hr] at g9 g10 g5
  simp only [List.map_cons, List.map_nil, List.cons.injEq, Prod.mk.injEq, and_true] at g9
  obtain ⟨⟨p1, p2, p3, -⟩, q1, q2, q3, -⟩ := g9
  have hsel : selection (Handler.run hd []) false = [0, 1] := by
    simp [selection, Handler.run, g5, List.range_succ]
  obtain ⟨g, sky, objs, nx, ny, nz, k1, k2, k3, k4, k5, k6, k7, k8⟩ := C127_observed_partial (F := Unit) (D := Unit)
    (T := Unit) (S := Unit) hd (1 / 2) [r1, r2]
    "mass" _ g10 [] (by simp [LC.Spec.Untouched]) false (some true) (by rw [hsel]; simp) (coneMeta (mapSt 1) (1 / 2) true) none
    (by simp) (some ⟨false, [1 / 5, 1 / 5, 5]⟩) none none none none (-(3 / 10)) (3 / 10) (-(3 / 10)) (3 / 10) 5 20
    (1 / 5) (1 / 5) 5 ⟨by norm_num, by decide +kernel⟩ ⟨by norm_num, by decide +kernel⟩
    ⟨by norm_num, by decide +kernel⟩ rfl (by norm_num) (by norm_num)
    (by norm_num) (by norm_num) (by norm_num) (by norm_num) (by simp) ⟨none, by simp, by simp⟩
  have three : ∀ (n : ℕ) (w : ℚ), 0 < w → 5 / 2 * w < n * w → n * w < 4 * w → n = 3 := by
    intro n w hw h1 h2
    have h1' := lt_of_mul_lt_mul_right h1 hw.le
    have h2' := lt_of_mul_lt_mul_right h2 hw.le
    have : (2 : ℚ) < n := by linarith
    have a1 : 2 < n := by exact_mod_cast this
    have a2 : n < 4 := by exact_mod_cast h2'
    omega
  have hnx : nx = 3 := three nx (1 / 5) (by norm_num) (by linarith [k3.1]) (by linarith [k3.2])
  have hny : ny = 3 := three ny (1 / 5) (by norm_num) (by linarith [k4.1]) (by linarith [k4.2])
  have hnz : nz = 3 := three nz 5 (by norm_num) (by linarith [k5.1]) (by linarith [k5.2])
  subst hnx hny hnz
  obtain ⟨d1, d2, d3, d4, d5⟩ := degState_facts
  obtain ⟨s1, s2, cols, e1, e2, e3, e4⟩ := k8 flatLib degSetup degOps degState "sky" 3 3 .peak .none (fun _ _ _ _ => 1)
    (fun _ _ => 1) (fun _ => List.replicate 1 0)
    { positions := [⟨false, 0, 0⟩], withNoise := false, seed := fun _ _ => () } rfl (by rw [d3]; rfl)
    (by rw [d4]; simp) (by rw [d5]; simp) (deg_equipped "sky" 3 (by decide) _ _ _ _ [⟨false, 0, 0⟩]) (by simp)
  rw [d1] at e4
  rw [hsel] at k2
  obtain ⟨o1, o2, ho⟩ : ∃ o1 o2, objs = [o1, o2] := by
    have := k2.length_eq
    match objs, this with
    | [o1, o2], _ => exact ⟨o1, o2, rfl⟩
  subst ho
  simp only [List.forall₂_cons, List.forall₂_nil_left_iff, and_true] at k2
  obtain ⟨⟨r, b1, b2, b3, b4, b5⟩, ⟨r', c1, c2, c3, c4, c5⟩⟩ := k2
  cases b1
  cases c1
  have m1 : o1.v = 3 / 2 := by
    simp only [LC.Spec.shownAs, List.map_cons, List.getElem?_cons_zero, Handler.Spec.seen, Option.getD_some, if_true,
      Option.some.injEq] at b5
    exact b5.symm
  have m2 : o2.v = 1 := by
    simp only [LC.Spec.shownAs, List.map_cons, List.getElem?_cons_succ, List.getElem?_cons_zero, Handler.Spec.seen,
      Option.getD_some, if_true, Option.some.injEq] at c5
    exact c5.symm
  obtain ⟨o1x, o1y, o1z, o1v⟩ := o1
  obtain ⟨o2x, o2y, o2z, o2v⟩ := o2
  simp only [Option.elim_none] at b2 b3 b4 c2 c3 c4 m1 m2
  rw [p1] at b2
  rw [p2] at b3
  rw [p3] at b4
  rw [q1] at c2
  rw [q2] at c3
  rw [q3] at c4
  subst b2 b3 b4 c2 c3 c4 m1 m2
  cases e4 with
  | cons ha hn =>
    cases hn
    rename_i cl
    obtain ⟨det, N, f1, f2, f3, f4⟩ := ha
    have hdet : det.pointing = ⟨false, 0, 0⟩ := by
      rw [d2] at f1
      simp [PyDict.get?] at f1
      rw [← f1]
    obtain ⟨v, hv⟩ := List.length_eq_one_iff.1 f3
    subst hv
    refine ⟨hd, g, sky, s1, s2, v, g3, k1, k6, e1, e2, e3, ?_⟩
    have hread := (f4 0 ⟨false, 0, 0⟩ 0 v rfl rfl rfl).1 1 1 (by rw [hdet]; decide +kernel)
      (by rw [hdet]; decide +kernel)
    have hN : ∀ k < 3, N k = 1 := by
      intro k hk
      have := (f2 k hk).1
      simp only [Map.Spec.beamValues, List.mem_flatMap, List.mem_map] at this
      obtain ⟨_, _, _, _, h⟩ := this
      exact h.symm
    have s1' : share (fun _ _ _ => 1) (fun _ => 1) N 3 3 3 3 3 (1 / 5) (1 / 5) 5 ((-(3 / 10) + 3 / 10) / 2)
        ((-(3 / 10) + 3 / 10) / 2) ((5 + 20) / 2) 1 1 ⟨0, 9 / 41, 41 / 4, 3 / 2⟩ = 3 / 2 := by
      have t1 : spot 3 (1 / 5 : ℚ) ((-(3 / 10) + 3 / 10) / 2) 0 = some 1 := by decide +kernel
      have t2 : spot 3 (1 / 5 : ℚ) ((-(3 / 10) + 3 / 10) / 2) (9 / 41) = some 2 := by decide +kernel
      have t3 : spot 3 (5 : ℚ) ((5 + 20) / 2) (41 / 4) = some 1 := by decide +kernel
      unfold share
      simp only [t1, t2, t3, hN 1 (by decide)]
      rw [if_pos (by decide)]
      norm_num
    have s2' : share (fun _ _ _ => 1) (fun _ => 1) N 3 3 3 3 3 (1 / 5) (1 / 5) 5 ((-(3 / 10) + 3 / 10) / 2)
        ((-(3 / 10) + 3 / 10) / 2) ((5 + 20) / 2) 1 1 ⟨0, 0, 15, 1⟩ = (1 : ℚ) := by
      have t1 : spot 3 (1 / 5 : ℚ) ((-(3 / 10) + 3 / 10) / 2) 0 = some 1 := by decide +kernel
      have t3 : spot 3 (5 : ℚ) ((5 + 20) / 2) 15 = some 2 := by decide +kernel
      unfold share
      simp only [t1, t3, hN 2 (by decide)]
      rw [if_pos (by decide)]
      norm_num
    rw [hread]
    unfold received
    simp only [List.map_cons, List.map_nil, s1', s2', List.sum_cons, List.sum_nil, Option.getD_none]
    norm_num [List.range_succ]

/-- C127 is false in full: an instrument that measures in degrees takes the map, and reads its radians as degrees. -/
theorem C127_full_false : ¬ C127_full := by
  intro H
  obtain ⟨c, f, hd, g1, g2, g3, g4, g5, g6, g7, g8, g9, g10⟩ := map_opened 1 (Or.inl rfl)
  have hlen : c.rows.length = 2 := by
    have := congrArg List.length g9
    simpa using this
  have hsel : selection (Handler.run hd []) false ≠ [] := by
    simp [selection, Handler.run, g5, hlen, List.range_succ]
  obtain ⟨g, sky, objs, nx, ny, nz, k1, k2, k3, k4, k5, k6, k7, k8, k9, k10⟩ := C127_sky hd (1 / 2) c.rows "mass" _ g10 []
    (by simp [LC.Spec.Untouched]) false none hsel (coneMeta (mapSt 1) (1 / 2) true) none (by simp) none none none none
    none (-(3 / 10)) (3 / 10) (-(3 / 10)) (3 / 10) 5 20 (3 / 500) (3 / 500) (3 / 20) ⟨by norm_num, by decide +kernel⟩
    ⟨by norm_num, by decide +kernel⟩ ⟨by norm_num, by decide +kernel⟩ (by decide +kernel) (by norm_num) (by norm_num)
    (by norm_num) (by norm_num) (by norm_num) (by norm_num) (by simp) ⟨none, by simp, by simp⟩
  obtain ⟨-, -, d3, d4, d5⟩ := degState_facts
  obtain ⟨s1, a1, -⟩ := C127_added degState "sky" (plainGrid g) sky k7 k8 k9 (by rw [d3]; rfl) (by rw [d4]; simp)
    (by rw [d5]; simp)
  have := H hd (1 / 2) c.rows "mass" _ g10 (coneMeta (mapSt 1) (1 / 2) true) g sky k1 k7.active k2 flatLib degSetup degOps
    "sky" s1 a1
  simp [degSetup] at this

end Verif.Inst
