import Verif.Props.LCMap
import Verif.Props.LCFileEx
import Mathlib.Tactic.Linarith

set_option linter.unusedSectionVars false

/-!
# Maps of concrete lightcones; C120 as stated
-/

namespace Verif.LC

open Verif.Sim (Err SnapMeta)
open Verif.Handler (State V Name Op run)
open Verif.Handler.Spec (Reachable selection)
open Verif.HGrid (lcGrid)
open Verif.Map.Spec (total)
open Verif.LC.Spec
open Matrix

/-- A square root on the rationals, exact for squares of rationals, otherwise too large. -/
def rootQ (s : ℚ) : ℚ := if sqrtQ s ^ 2 = s then sqrtQ s else max s 1

theorem rootQ_bound (x y : ℚ) : |x| ≤ rootQ (x ^ 2 + y ^ 2) := by
  have hy : 0 ≤ y ^ 2 := sq_nonneg y
  have hx : |x| ^ 2 = x ^ 2 := sq_abs x
  have h0 : 0 ≤ |x| := abs_nonneg x
  unfold rootQ
  split
  · rename_i h
    have hs : 0 ≤ sqrtQ (x ^ 2 + y ^ 2) := by
      unfold sqrtQ
      exact div_nonneg (Nat.cast_nonneg _) (Nat.cast_nonneg _)
    refine abs_le_of_sq_le_sq ?_ hs
    rw [h]
    linarith
  · rcases le_total |x| 1 with h | h
    · exact h.trans (le_max_right _ _)
    · refine le_trans ?_ (le_max_left _ _)
      nlinarith

/-- A circular lightcone with a given aspect ratio. -/
def mapSt (r : ℚ) : Settings ℚ := { exSt 5 with angle := 3 / 5, aspect := r, root := rootQ }

/-- Two halos, the first one not on the line of sight. -/
def mapData : ℕ → SnapData ℚ := fun _ =>
  ⟨[(2, 0), (1/2, 2)], [⟨3/2, fun a => exSky.flips a *
      (13 + 10 * exSky.los a + 9/4 * exSky.losM 2 a)⟩,
    ⟨1, fun a => exSky.flips a * (13 + 15 * exSky.los a)⟩]⟩

/-- The `LCMaker` of the example. -/
def mapEnv (r : ℚ) : Env ℚ := ⟨mapSt r, exMetas, mapData, exCat, id, exKnown, 1⟩

/-- The lightcone is built. -/
def mapBuild (r : ℚ) : Folder ℚ × Except Err Unit :=
  exec (buildPlan (mapSt r) [exSky] exMetas mapData exBins) (fun _ => none)

/-- The units of the properties of the example. -/
def mapSim : String → Option (String × ℤ) := exSim

theorem map_described (r : ℚ) : Described (mapEnv r) mapSim :=
  ⟨ex_described.basic, ex_described.known, ex_described.vector⟩

theorem map_consistent (r : ℚ) : Consistent (mapSt r) exMetas id :=
  have h := ex_consistent 5 (by norm_num)
  ⟨h.mono, h.dzmin, h.dzmax, h.range, h.dmin, h.dmax, h.zrange, h.apart, h.distinct⟩

theorem mapBuild_ok : after (mapBuild 1) (fun d => atFile 0 d (fun f =>
      decide ((f.dataset "mass").isSome))) = true ∧
    after (mapBuild (1 / 2)) (fun d => atFile 0 d (fun f =>
      decide ((f.dataset "mass").isSome))) = true := by
  constructor <;> decide +kernel

theorem mapRows (r : ℚ) (hr : r = 1 ∨ r = 1 / 2) :
    (match buildCone (mapSt r) exSky exMetas mapData exBins with
      | .ok c => decide (c.rows.map (fun r : Row ℚ => (r.ra, r.dec, r.redshift, r.mass)) =
          [(0, 9 / 41, 41 / 4, 3 / 2), (0, 0, 15, 1)])
      | .error _ => false) = true := by
  rcases hr with rfl | rfl <;> decide +kernel

/-- C120 as stated: the default map of a lightcone has all its objects. -/
def C120_full : Prop :=
  ∀ (e : Env ℚ) (sim : String → Option (String × ℤ)) (skies : List (Sky ℚ)) (bins : List ℚ)
    (d d0 d' : Folder ℚ) (i : ℕ) (sky : Sky ℚ) (c : Cone ℚ) (h : ℚ) (inH : Bool)
    (more : PyDict Name ℚ) (hd : State ℚ) (D : ℚ → ℚ),
    Described e sim → e.n = skies.length →
    exec (buildPlan e.st skies e.metas e.data bins) d = (d0, .ok ()) → Left e d0 d' →
    skies[i]? = some sky → buildCone e.st sky e.metas e.data bins = .ok c → c.rows ≠ [] →
    openCone sim (d' i) h inH more = .ok hd →
    Consistent e.st e.metas D → Inverse e.st D → 0 < D e.st.zlo → 0 < e.st.angle → 0 < e.st.aspect →
    -1 < e.st.zlo → e.st.zlo < e.st.zhi → (∀ x y, |x| ≤ e.st.root (x ^ 2 + y ^ 2)) →
    ∃ g, lcGrid hd (coneMeta e.st h inH) ["mass"] none = some (.ok g) ∧ g.nObj = c.rows.length

/-- What is known about the example. -/
theorem map_opened (r : ℚ) (hr : r = 1 ∨ r = 1 / 2) :
    ∃ (c : Cone ℚ) (f : LCFile ℚ) (hd : State ℚ),
      buildCone (mapSt r) exSky exMetas mapData exBins = .ok c ∧
      (mapBuild r).1 0 = some f ∧ openCone mapSim ((mapBuild r).1 0) (1 / 2) true [] = .ok hd ∧
      hd.nAll = c.rows.length ∧ hd.active = List.range c.rows.length ∧ f.dataset "mass" = some [3 / 2, 1] ∧
      Left (mapEnv r) (mapBuild r).1 (mapBuild r).1 ∧
      exec (buildPlan (mapSt r) [exSky] exMetas mapData exBins) (fun _ => none) =
        ((mapBuild r).1, .ok ()) ∧
      c.rows.map (fun r : Row ℚ => (r.ra, r.dec, r.redshift, r.mass)) =
          [(0, 9 / 41, 41 / 4, 3 / 2), (0, 0, 15, 1)] ∧
      Shows hd (1 / 2) c.rows ["mass"] (fun _ => (-1, [3 / 2, 1])) := by
  have hb : exec (buildPlan (mapSt r) [exSky] exMetas mapData exBins) (fun _ => none) =
      ((mapBuild r).1, .ok ()) := by
    rcases hr with rfl | rfl
    · exact (after_ok mapBuild_ok.1).1
    · exact (after_ok mapBuild_ok.2).1
  have hleft : Left (mapEnv r) (mapBuild r).1 (mapBuild r).1 := ⟨[], _, .scalar [], 0, rfl, rfl⟩
  obtain ⟨c, f, hd, g1, g2, g3, -, g5, g6, g7⟩ := C120_opened (mapEnv r) mapSim (map_described r) [exSky] exBins rfl
    (fun _ => none) _ _ hb hleft 0 exSky rfl (1 / 2) true []
  have g1' : buildCone (mapSt r) exSky exMetas mapData exBins = .ok c := g1
  have hrows := mapRows r hr
  rw [g1'] at hrows
  simp only [decide_eq_true_eq] at hrows
  obtain ⟨c', f', hd', k1, k2, -, k4, -, -, -, -, -, k10, k11⟩ := C119_opens (mapEnv r) mapSim (map_described r)
    [exSky] exBins rfl (fun _ => none) _ _ hb hleft 0 exSky rfl (1 / 2) true []
  obtain ⟨f2, a1, -, -, -, ⟨c2, c1, -, -, hfull⟩, -, -⟩ := C34_build_again (mapSt r) [exSky] exMetas mapData
    exBins _ _ hb 0 exSky rfl
  rw [g2] at a1
  cases a1
  rw [g1'] at c1
  cases c1
  have hm : f.dataset "mass" = some [3 / 2, 1] := by
    unfold LCFile.dataset
    rw [hfull]
    have : c.rows.map Row.mass = [3 / 2, 1] := by
      have := congrArg (List.map (fun q : ℚ × ℚ × ℚ × ℚ => q.2.2.2)) hrows
      rw [List.map_map] at this
      exact this
    simp [basicData, PyDict.get?, this]
  have hsh := g7 ["mass"] (by
    intro p hp
    simp only [List.mem_cons, List.not_mem_nil, or_false] at hp
    subst hp
    exact ⟨by decide, by rw [hm]; rfl⟩)
  refine ⟨c, f, hd, g1', g2, g3, g5, g6, hm, hleft, hb, hrows, hsh.ra, hsh.dec, hsh.redshift, ?_⟩
  intro p hp
  have h2 := hsh.column p hp
  simp only [List.mem_cons, List.not_mem_nil, or_false] at hp
  subst hp
  simpa [hm, mapSim, exSim, attr] using h2

theorem C120_full_false : ¬ C120_full := by
  intro H
  obtain ⟨c, f, hd, g1, g2, g3, g4, g5, g6, g7, g8, g9, g10⟩ := map_opened (1 / 2) (Or.inr rfl)
  have hlen : c.rows.length = 2 := by
    have := congrArg List.length g9
    simpa using this
  obtain ⟨g, h1, h2⟩ := H (mapEnv (1 / 2)) mapSim [exSky] exBins (fun _ => none) _ _ 0 exSky c (1 / 2) true []
    hd id (map_described _) rfl g8 g7 rfl g1 (by intro h; rw [h] at hlen; simp at hlen) g3
    (map_consistent _) (fun d h1 h2 => ⟨h1, h2⟩) (by norm_num [mapEnv, mapSt, exSt])
    (by norm_num [mapEnv, mapSt, exSt]) (by norm_num [mapEnv, mapSt]) (by norm_num [mapEnv, mapSt, exSt])
    (by norm_num [mapEnv, mapSt, exSt]) rootQ_bound
  rcases hr : c.rows with - | ⟨r, rs⟩
  · rw [hr] at hlen; simp at hlen
  have hdec : r.dec = 9 / 41 := by
    rw [hr] at g9
    simp only [List.map_cons, List.cons.injEq, Prod.mk.injEq] at g9
    exact g9.1.2.1
  obtain ⟨g', h3, h4⟩ := C120_lost hd (1 / 2) c.rows ["mass"] _ g10 [] (by simp [Untouched]) (by simp) false none
    (mapSt (1 / 2)) true (by norm_num [mapSt]) (by norm_num [mapSt]) (by norm_num [mapSt, exSt]) 0
    (by simp [selection, run, g5, hlen]) r (by rw [hr]; rfl)
    (Or.inl (by rw [hdec]; norm_num [mapSt, abs_of_pos]))
  have h3' : lcGrid hd (coneMeta (mapEnv (1 / 2)).st (1 / 2) true) ["mass"] none = some (.ok g') := h3
  rw [h1] at h3'
  simp only [Option.some.injEq, Except.ok.injEq] at h3'
  subst h3'
  have : (selection (run hd []) false).length = c.rows.length := by
    simp [selection, run, g5]
  omega

/-- With aspect ratio one the map of both halos is complete: the sum of all cells is the mass of both,
without `h` when asked for. -/
example : ∃ hd g t, openCone mapSim ((mapBuild 1).1 0) (1 / 2) true [] = .ok hd ∧
    lcGrid hd (coneMeta (mapSt 1) (1 / 2) true) ["mass"] (some 115) (some false) = some (.ok g) ∧
    g.grid = some t ∧ g.nObj = 2 ∧ total g t 0 = ((5 : ℚ) : WithTop ℚ) := by
  obtain ⟨c, f, hd, g1, g2, g3, g4, g5, g6, g7, g8, g9, g10⟩ := map_opened 1 (Or.inl rfl)
  have hlen : c.rows.length = 2 := by
    have := congrArg List.length g9
    simpa using this
  have hz : ∀ r ∈ c.rows, r.redshift = 41 / 4 ∨ r.redshift = 15 := by
    intro r hr
    have : (r.ra, r.dec, r.redshift, r.mass) ∈ c.rows.map (fun r : Row ℚ =>
      (r.ra, r.dec, r.redshift, r.mass)) := List.mem_map.2 ⟨r, hr, rfl⟩
    rw [g9] at this
    simp only [List.mem_cons, Prod.mk.injEq, List.not_mem_nil, or_false] at this
    rcases this with h | h
    · exact Or.inl h.2.2.1
    · exact Or.inr h.2.2.1
  obtain ⟨g, t, h1, h2, h3, h4⟩ := C120_complete_partial (mapSt 1) exSky exMetas mapData exBins c id g1
    (map_consistent 1) (fun d h1 h2 => ⟨h1, h2⟩) (by norm_num [mapSt, exSt]) (by norm_num [mapSt])
    (by norm_num [mapSt]) (by norm_num [mapSt, exSt]) (by norm_num [mapSt, exSt]) rootQ_bound (some 115)
    (by simp) ⟨fun _ => le_refl _, (fun h => by cases h), (fun _ r hr => by
      rcases hz r hr with h | h <;> rw [h] <;> norm_num [mapSt, exSt])⟩ hd (1 / 2) ["mass"] _ g10 []
    (by simp [Untouched]) (by simp) false (some false) (by simp [selection, run, g5, hlen, List.range_succ]) true
  refine ⟨hd, g, t, g3, h1, h2, ?_, ?_⟩
  · rw [h3]
    simp [selection, run, g5, hlen]
  · rw [h4 0 "mass" rfl]
    have : selection (run hd []) false = [0, 1] := by simp [selection, run, g5, hlen, List.range_succ]
    rw [this]
    simp only [Option.getD_some]
    decide +kernel

end Verif.LC
