import Verif.Props.ConeLight
import Verif.Props.ConeObserveEx
import Verif.Props.SimAllEx

set_option linter.unusedSectionVars false

/-!
# C135 on a concrete lightcone; C135 as stated
-/

namespace Verif.Inst

open Spec
open Verif.Handler (MultiProp MakeOpts V doubleMass plainOpts)
open Verif.Handler.Spec (Reachable selection Computes Remains source stored changes WF)
open Verif.HGrid (lcGrid coneState coneFile coneFile_wf coneState_init coneState_reachable)
open Verif.LC (Row)
open Verif.LC.Spec (Shown Shows Untouched)
open Verif.Map (Grid Arr BeamNorm PadArg NArr)
open Verif.Map.Spec (cell InCell edges)

/-- A freshly opened file shows what is in it, whatever is called that does not change it. -/
theorem shown_file {K : Type} [_root_.Field K] [LinearOrder K] (file : PyDict Handler.Name (Handler.Dataset K)) (n : ℕ)
    (hwf : WF file n) (h : K) (inH : Bool) (s0 : Handler.State K) (hs0 : Handler.init file h inH = .ok s0)
    (name : Handler.Name) (hne : name ≠ "mass_cuts") (l : List K) (u : Option String) (e : ℤ) (i : Bool)
    (hget : file.get? name = some ⟨l.map some, u, some e, i⟩) : Shown s0 name e h l := by
  intro ops hops useAll b
  obtain ⟨e', he', hu⟩ := Handler.init_un file n hwf h inH s0 hs0 name _ hne hget
  cases he'
  have hu' := Handler.run_un _ ops hops hu
  have hI : Handler.Inv (Handler.run s0 ops) := Handler.run_inv _ _ (Handler.inv_init file n hwf h inH s0 hs0)
  obtain ⟨out, o1, o2, o3⟩ := Handler.returnProperty_ok _ hI name useAll b hu'.all hne _ hu'.hdep _ hu'.held
  refine ⟨out, o1, o2, ?_⟩
  intro j k hj
  have hlen := Handler.held_length _ hI name hne _ hu'.held
  simp only [List.length_map] at hlen
  have hk : k < l.length := by
    rw [hlen]
    have := List.mem_of_getElem? hj
    unfold selection at this
    split at this
    · simpa using this
    · exact hI.bound k this
  refine ⟨l[k], List.getElem?_eq_getElem hk, ?_⟩
  rw [o3 j]
  rw [Handler.selection_eq] at hj
  rw [hj, hu'.hh]
  simp only [Option.bind_some, List.getElem?_map, List.getElem?_eq_getElem hk, Option.map_some, Handler.Spec.seen]

/-- The objects of the lightcone `coneState`. -/
def coneRows : List (Row ℚ) := [⟨0, 0, 0, 0, 1 / 100, 3 / 2, 1, 0, 0⟩, ⟨0, 0, 0, 1 / 20, 1 / 3, 3 / 2, 2, 0, 1⟩]

theorem cone_shows : Shows coneState (1 / 2) coneRows ["mass"] (fun _ => (-1, [1, 2])) where
  ra := shown_file coneFile 2 coneFile_wf _ _ _ coneState_init _ (by decide) _ (some "rad") _ false rfl
  dec := shown_file coneFile 2 coneFile_wf _ _ _ coneState_init _ (by decide) _ (some "rad") _ false rfl
  redshift := shown_file coneFile 2 coneFile_wf _ _ _ coneState_init _ (by decide) _ (some "none") _ false
    rfl
  column := by
    intro p hp
    simp only [List.mem_cons, List.not_mem_nil, or_false] at hp
    subst hp
    exact shown_file coneFile 2 coneFile_wf _ _ _ coneState_init _ (by decide) _ (some "Msun/h") _ false
      rfl

/-- Twice the mass can be computed for the objects, whatever was selected before. -/
theorem cone_computes (s : Handler.State ℚ) (hs : Handler.hasProperty s "mass2" = false) :
    Computes s doubleMass (fun _ row => (row.head?.getD none).map (2 * ·)) plainOpts [("mass2", -1)] where
  rows := SimAll.doubleMass_rowwise
  memory := rfl
  plain := rfl
  number := rfl
  different := by decide
  noTable := by decide
  free := .inr (by
    intro name hn
    simp only [plainOpts, doubleMass, Option.getD_none, List.mem_cons, List.not_mem_nil, or_false] at hn
    subst hn
    exact hs)
  listed := rfl
  allPowers := by decide
  allUnits := by decide
  noTuple := fun h => Bool.noConfusion h.1

/-- The selection is changed before the property is computed; afterwards it is written, unloaded and read again. -/
def lightOps : List (Handler.Op ℚ) := [.load ["mass"], .range (some "mass") (some (3 / 2)) none true none]

@[inherit_doc lightOps]
def lightMore : List (Handler.Op ℚ) :=
  [.range none none none true none, .setInH false]

theorem light_remains (s : Handler.State ℚ) : Remains "mass2" s lightMore := by
  refine ⟨?_, ?_⟩
  · intro op hop
    simp only [lightMore, List.mem_cons, List.not_mem_nil, or_false] at hop
    rcases hop with rfl | rfl <;> exact fun h => h
  · intro done todo ps hd
    have : Handler.Op.unload ps ∈ lightMore := by rw [hd]; simp
    simp [lightMore] at this

/-- C135 as stated: the map of light that a function computes has no NaN, if the function gives numbers for numbers. -/
def C135_full : Prop :=
  ∀ (hd : Handler.State ℚ) (rows : List (Row ℚ)) (names : List Handler.Name) (col : Handler.Name → ℤ × List ℚ)
    (ops : List (Handler.Op ℚ)) (model : MultiProp ℚ) (gal : ℕ → List (V ℚ) → V ℚ) (o : MakeOpts ℚ)
    (powers : PyDict Handler.Name ℤ) (p : Handler.Name) (more : List (Handler.Op ℚ)) (useAll : Bool)
    (inH : Option Bool) (meta' : LCH.Meta ℚ) (line : Option ℚ) (res ralim declim zlim : Option (NArr ℚ))
    (norm : Option ℚ) (g : Grid ℚ (WithTop ℚ)),
    Reachable hd → Shows hd hd.h rows names col → Untouched names ops → Computes (Handler.run hd ops) model gal o powers →
    (∀ kw ∈ model.kwargs, source o kw ∈ names ∧ source o kw ≠ "mass_cuts") →
    (∀ j vs, vs.length = model.kwargs.length → (∀ v ∈ vs, v.isSome) → (gal j vs).isSome) →
    (∀ q ∈ ["ra", "dec", "redshift"], q ∉ o.rename.getD model.names) → p ∈ o.rename.getD model.names →
    (Handler.run hd ops).file.get? p = none → Untouched [] more →
    Remains p (Handler.run hd (ops ++ [.make model o])) more →
    lcGrid (Handler.run hd (ops ++ .make model o :: more)) meta' [p] line inH useAll res ralim declim zlim norm =
      some (.ok g) → NoNaN g 1

theorem light_untouched (names : List Handler.Name) : Untouched names lightOps ∧ Untouched names lightMore := by
  constructor <;> intro op hop q _
  · simp only [lightOps, List.mem_cons, List.not_mem_nil, or_false] at hop
    rcases hop with rfl | rfl <;> exact fun h => h
  · simp only [lightMore, List.mem_cons, List.not_mem_nil, or_false] at hop
    rcases hop with rfl | rfl <;> exact fun h => h

theorem three (n : ℕ) (w : ℚ) (hw : 0 < w) (h1 : 5 / 2 * w < n * w) (h2 : n * w < 4 * w) : n = 3 := by
  have h1' := lt_of_mul_lt_mul_right h1 hw.le
  have h2' := lt_of_mul_lt_mul_right h2 hw.le
  have : (2 : ℚ) < n := by linarith
  have a1 : 2 < n := by exact_mod_cast this
  have a2 : n < 4 := by exact_mod_cast h2'
  omega

/-- C135 is false in full: objects that were not selected when the property was computed make the map NaN. -/
theorem C135_full_false : ¬ C135_full := by
  intro H
  obtain ⟨g, t, nx, ny, nz, g1, g2, k3, k4, k5, g3⟩ := C135_left_out coneState coneState_reachable coneRows ["mass"] _
    cone_shows lightOps (light_untouched _).1 doubleMass _ plainOpts _ (cone_computes _ (by decide +kernel))
    (by decide) (by decide) 0 "mass2" "mass2" (-1) rfl rfl rfl (by decide +kernel) lightMore (light_untouched _).2
    (light_remains _) false none (HGrid.coneMeta 1) none (by simp) (some ⟨false, [1 / 3, 1 / 3, 1 / 3]⟩) none none none none
    (-(1 / 2)) (1 / 2) (-(1 / 2)) (1 / 2) 1 2 (1 / 3) (1 / 3) (1 / 3) ⟨by norm_num, by decide +kernel⟩
    ⟨by norm_num, by decide +kernel⟩ ⟨by norm_num, by decide +kernel⟩ rfl (by norm_num) (by norm_num) (by norm_num)
    (by norm_num) (by norm_num) (by norm_num) 0 (by decide +kernel) (by decide +kernel) _ rfl
  have hnx : nx = 3 := three nx (1 / 3) (by norm_num) (by linarith [k3.1]) (by linarith [k3.2])
  have hny : ny = 3 := three ny (1 / 3) (by norm_num) (by linarith [k4.1]) (by linarith [k4.2])
  have hnz : nz = 3 := three nz (1 / 3) (by norm_num) (by linarith [k5.1]) (by linarith [k5.2])
  subst hnx hny hnz
  refine H coneState coneRows ["mass"] _ lightOps doubleMass _ plainOpts _ "mass2" lightMore false none (HGrid.coneMeta 1)
    none (some ⟨false, [1 / 3, 1 / 3, 1 / 3]⟩) none none none none g coneState_reachable cone_shows (light_untouched _).1
    (cone_computes _ (by decide +kernel)) (by decide) ?_ (by decide) (by decide) (by decide +kernel) (light_untouched _).2
    (light_remains _) g1 t g2 [1, 1, 1] 0 (by decide) (g3 1 1 1 (by decide +kernel) (by decide +kernel) (by decide +kernel))
  intro j vs hl hv
  match vs, hl with
  | [v], _ =>
    have := hv v (by simp)
    simp [this]

/-- The property is written, unloaded, and shown without `h`. -/
def keepMore : List (Handler.Op ℚ) := [.write ["mass2"] false, .unload ["mass2"], .setInH false]

theorem keep_remains : Remains "mass2" (Handler.run coneState ([.load ["mass"]] ++ [.make doubleMass plainOpts])) keepMore := by
  refine ⟨?_, ?_⟩
  · intro op hop
    simp only [keepMore, List.mem_cons, List.not_mem_nil, or_false] at hop
    rcases hop with rfl | rfl | rfl <;> exact fun h => h
  · intro done todo ps hd hp
    match done, hd with
    | [], hd => simp [keepMore] at hd
    | [op], hd =>
      simp only [keepMore, List.cons_append, List.nil_append, List.cons.injEq] at hd
      obtain ⟨rfl, -⟩ := hd
      decide +kernel
    | [_, _], hd => simp [keepMore] at hd
    | _ :: _ :: _ :: done, hd => simp [keepMore] at hd

/-- Twice the mass is computed for both objects, written and unloaded; the map without `h` is observed in three by three
cells and three channels: pointed at the middle, the detector reads a third of the sum of both. -/
example : ∃ g sky s1 s2 v,
    lcGrid (Handler.run coneState ([.load ["mass"]] ++ .make doubleMass plainOpts :: keepMore)) (HGrid.coneMeta 1) ["mass2"]
      none none false (some ⟨false, [1 / 3, 1 / 3, 1 / 3]⟩) = some (.ok g) ∧ (plainGrid g).grid = some sky ∧
    addField degState { grid := asField (plainGrid g) sky, name := some "sky" } = (s1, .ok "sky") ∧
    mapFields (grids flatLib) s1 ["sky"] { kernel := some (.pair 3 3), opts := (.peak, .none) } = (s2, .ok ()) ∧
    sampleFields (grids flatLib) s2 ["sky"]
      { positions := [⟨false, 0, 0⟩], withNoise := false, seed := fun _ _ => () } = .ok [("sky", [[v]])] ∧
    v = some 2 := by
  have hsel : selection (Handler.run coneState ([.load ["mass"]] ++ .make doubleMass plainOpts :: keepMore)) false =
      [0, 1] := by decide +kernel
  obtain ⟨g, sky, objs, nx, ny, nz, k1, k2, k3, k4, k5, k6, k7, k8⟩ := C135_observed_partial (F := Unit) (D := Unit)
    (T := Unit) (S := Unit) coneState coneState_reachable coneRows ["mass"] _
    cone_shows [.load ["mass"]] (by
      intro op hop q _
      simp only [List.mem_cons, List.not_mem_nil, or_false] at hop
      subst hop
      exact fun h => h) doubleMass _ plainOpts _ (cone_computes _ (by decide +kernel))
    (by decide) (by decide) 0 "mass2" "mass2" (-1) rfl rfl rfl (by decide +kernel) keepMore (by
      intro op hop q hq
      simp only [keepMore, List.mem_cons, List.not_mem_nil, or_false] at hop
      simp only [List.mem_append, List.mem_cons, List.not_mem_nil, or_false] at hq
      rcases hop with rfl | rfl | rfl
      · rcases hq with rfl | rfl | rfl <;> simp [changes]
      · exact fun h => h
      · exact fun h => h) keep_remains false none (by rw [hsel]; simp) (fun k => if k = 0 then 2 else 4) (by
      rw [hsel]
      intro k hk
      simp only [List.mem_cons, List.not_mem_nil, or_false] at hk
      rcases hk with rfl | rfl <;> decide +kernel)
    (HGrid.coneMeta 1) none (by simp) (some ⟨false, [1 / 3, 1 / 3, 1 / 3]⟩) none none none none
    (-(1 / 2)) (1 / 2) (-(1 / 2)) (1 / 2) 1 2 (1 / 3) (1 / 3) (1 / 3) ⟨by norm_num, by decide +kernel⟩
    ⟨by norm_num, by decide +kernel⟩ ⟨by norm_num, by decide +kernel⟩ rfl (by norm_num) (by norm_num) (by norm_num)
    (by norm_num) (by norm_num) (by norm_num) (by simp) ⟨none, by simp, by simp⟩
  have hnx : nx = 3 := three nx (1 / 3) (by norm_num) (by linarith [k3.1]) (by linarith [k3.2])
  have hny : ny = 3 := three ny (1 / 3) (by norm_num) (by linarith [k4.1]) (by linarith [k4.2])
  have hnz : nz = 3 := three nz (1 / 3) (by norm_num) (by linarith [k5.1]) (by linarith [k5.2])
  subst hnx hny hnz
  obtain ⟨d1, d2, d3, d4, d5⟩ := degState_facts
  obtain ⟨s1, s2, cols, e1, e2, e3, e4⟩ := k8 flatLib degSetup degOps degState "sky" 3 3 .peak .none (fun _ _ _ _ => 1)
    (fun _ _ => 1) (fun _ => List.replicate 1 0)
    { positions := [⟨false, 0, 0⟩], withNoise := false, seed := fun _ _ => () } rfl (by rw [d3]; rfl)
    (by rw [d4]; simp) (by rw [d5]; simp) (deg_equipped "sky" 3 (by decide) _ _ _ _ [⟨false, 0, 0⟩]) (by simp)
  rw [d1] at e4
  rw [hsel] at k2
  obtain ⟨o1, o2, ho⟩ : ∃ o1 o2, objs = [o1, o2] := by
    have := k2.length_eq
    match objs, this with
    | [o1, o2], _ => exact ⟨o1, o2, rfl⟩
  subst ho
  simp only [List.forall₂_cons, List.forall₂_nil_left_iff, and_true] at k2
  obtain ⟨⟨r, b1, b2, b3, b4, b5⟩, ⟨r', c1, c2, c3, c4, c5⟩⟩ := k2
  cases b1
  cases c1
  obtain ⟨o1x, o1y, o1z, o1v⟩ := o1
  obtain ⟨o2x, o2y, o2z, o2v⟩ := o2
  simp only [Option.elim_none, if_true, Nat.one_ne_zero, if_false] at b2 b3 b4 b5 c2 c3 c4 c5
  subst b2 b3 b4 b5 c2 c3 c4 c5
  cases e4 with
  | cons ha hn =>
    cases hn
    rename_i cl
    obtain ⟨det, N, f1, f2, f3, f4⟩ := ha
    have hdet : det.pointing = ⟨false, 0, 0⟩ := by
      rw [d2] at f1
      simp [PyDict.get?] at f1
      rw [← f1]
    obtain ⟨v, hv⟩ := List.length_eq_one_iff.1 f3
    subst hv
    refine ⟨g, sky, s1, s2, v, k1, k6, e1, e2, e3, ?_⟩
    have hread := (f4 0 ⟨false, 0, 0⟩ 0 v rfl rfl rfl).1 1 1 (by rw [hdet]; decide +kernel)
      (by rw [hdet]; decide +kernel)
    have hN : ∀ k < 3, N k = 1 := by
      intro k hk
      have := (f2 k hk).1
      simp only [Map.Spec.beamValues, List.mem_flatMap, List.mem_map] at this
      obtain ⟨_, _, _, _, h⟩ := this
      exact h.symm
    have s1' : share (fun _ _ _ => 1) (fun _ => 1) N 3 3 3 3 3 (1 / 3) (1 / 3) (1 / 3) ((-(1 / 2) + 1 / 2) / 2)
        ((-(1 / 2) + 1 / 2) / 2) ((1 + 2) / 2) 1 1 ⟨0, 1 / 100, 3 / 2, 2⟩ = (2 : ℚ) := by
      have t1 : spot 3 (1 / 3 : ℚ) ((-(1 / 2) + 1 / 2) / 2) 0 = some 1 := by decide +kernel
      have t2 : spot 3 (1 / 3 : ℚ) ((-(1 / 2) + 1 / 2) / 2) (1 / 100) = some 1 := by decide +kernel
      have t3 : spot 3 (1 / 3 : ℚ) ((1 + 2) / 2) (3 / 2) = some 1 := by decide +kernel
      unfold share
      simp only [t1, t2, t3, hN 1 (by decide)]
      rw [if_pos (by decide)]
      norm_num
    have s2' : share (fun _ _ _ => 1) (fun _ => 1) N 3 3 3 3 3 (1 / 3) (1 / 3) (1 / 3) ((-(1 / 2) + 1 / 2) / 2)
        ((-(1 / 2) + 1 / 2) / 2) ((1 + 2) / 2) 1 1 ⟨1 / 20, 1 / 3, 3 / 2, 4⟩ = (4 : ℚ) := by
      have t1 : spot 3 (1 / 3 : ℚ) ((-(1 / 2) + 1 / 2) / 2) (1 / 20) = some 1 := by decide +kernel
      have t2 : spot 3 (1 / 3 : ℚ) ((-(1 / 2) + 1 / 2) / 2) (1 / 3) = some 2 := by decide +kernel
      have t3 : spot 3 (1 / 3 : ℚ) ((1 + 2) / 2) (3 / 2) = some 1 := by decide +kernel
      unfold share
      simp only [t1, t2, t3, hN 1 (by decide)]
      rw [if_pos (by decide)]
      norm_num
    rw [hread]
    unfold received
    simp only [List.map_cons, List.map_nil, s1', s2', List.sum_cons, List.sum_nil, Option.getD_none]
    norm_num [List.range_succ]

end Verif.Inst
