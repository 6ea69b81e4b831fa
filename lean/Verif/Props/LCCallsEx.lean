import Verif.Props.LCCalls
import Verif.Props.LCFileEx

set_option linter.unusedSectionVars false

/-!
# Calls for a concrete set of lightcones; C121 as stated
-/

namespace Verif.LCI

open Verif.Handler (Name V Err State Arg Op run)
open Verif.LCH (Attrs EvoArgs evalStatEvo)
open Verif.LC (Env Folder Sky Described Left buildPlan exec openCone coneMeta exEnv exBuild exBins exSky
  exMetas exData exSt exSim Call after after_ok exBuild_ok ex_described)
open Verif.LCI.Spec

/-- C121 as stated: a call that raises changes no lightcone, a call that returns does for each lightcone
what it does for the lightcone alone. -/
def C121_full : Prop :=
  ∀ (e : Env ℚ) (sim : String → Option (String × ℤ)) (skies : List (Sky ℚ)) (bins : List ℚ)
    (d d0 d' : Folder ℚ) (h : ℚ) (inH : Bool) (more : PyDict Name ℚ) (cosmo : ℕ) (l : List ℕ) (it : Iter ℚ)
    (m : Method ℚ ℕ) (hs' : PyDict ℕ (State ℚ)) (r : Except Err (PyDict ℕ (Res ℚ ℕ))),
    Described e sim → e.n = skies.length →
    exec (buildPlan e.st skies e.metas e.data bins) d = (d0, .ok ()) → Left e d0 d' →
    openSet (fun i => openCone sim (d' i) h inH more) (fun _ => ⟨cosmo, coneMeta e.st h inH⟩) []
      (.list l) true = .ok it →
    callAll m it.handlers = (hs', r) →
    match r with
    | .error _ => hs' = it.handlers
    | .ok _ => hs' = it.handlers.map (fun q => (q.1, (callOne q.2 m).1))

/-- What is left when adding "sfr" is interrupted after the dataset of the first lightcone was made. -/
def cutFolder : Folder ℚ := (exec (((Call.scalar ["sfr"]).plan exEnv exBuild.1).take 3) exBuild.1).1

/-- The two lightcones, opened. -/
def cutSet : Except Err (Iter ℚ) :=
  openSet (fun i => openCone exSim (cutFolder i) (7/10) false [])
    (fun _ => ⟨0, coneMeta (exSt 5) (7/10) false⟩) [] (.list [0, 1]) true

/-- `set_property_range("sfr", 1)` for both: raises, but nothing is selected in the first. -/
def cutCall : Method ℚ ℕ := .range (some "sfr") (some 1) none true none

theorem cut_raises : (match cutSet with
    | .error _ => false
    | .ok it => (match callAll cutCall it.handlers with
      | (hs, .error _) => decide ((hs.get? 0).map (·.active) = some []) &&
          decide ((it.handlers.get? 0).map (·.active) = some [0, 1]) &&
          decide ((hs.get? 1).map (·.active) = some [0, 1])
      | (_, .ok _) => false)) = true := by
  decide +kernel

theorem C121_full_false : ¬ C121_full := by
  intro H
  have hc := cut_raises
  rcases hset : cutSet with e | it
  · rw [hset] at hc; cases hc
  rw [hset] at hc
  simp only at hc
  rcases hcall : callAll cutCall it.handlers with ⟨hs', e | rs⟩
  · rw [hcall] at hc
    simp only [Bool.and_eq_true, decide_eq_true_eq] at hc
    obtain ⟨⟨h1, h2⟩, -⟩ := hc
    have := H exEnv exSim [exSky, exSky] exBins (fun _ => none) exBuild.1 cutFolder (7/10) false [] 0 [0, 1] it
      cutCall hs' (.error e) ex_described rfl (after_ok exBuild_ok).1 ⟨[], exBuild.1, .scalar ["sfr"], 3, rfl, rfl⟩
      hset hcall
    simp only at this
    rw [this, h2] at h1
    simp at h1
  · rw [hcall] at hc; cases hc

/-- The set of both lightcones is opened in any order; C121_values applies after a call that raised. -/
example : ∃ it, openSet (fun i => openCone exSim (cutFolder i) (7/10) false [])
      (fun _ => ⟨0, coneMeta (exSt 5) (7/10) false⟩) [1, 0] .all true = .ok it ∧
    it.handlers.keys = [1, 0] ∧
    ∃ (hs' : PyDict ℕ (State ℚ)) (rs : PyDict ℕ (Res ℚ ℕ)),
      callAll (.ret "mass" true (some true)) (session it.handlers [cutCall]) = (hs', .ok rs) ∧ rs.keys = [1, 0] := by
  have hleft : Left exEnv exBuild.1 cutFolder := ⟨[], exBuild.1, .scalar ["sfr"], 3, rfl, rfl⟩
  obtain ⟨it, h1, -, -, h2, -⟩ := C121_opens exEnv exSim ex_described [exSky, exSky] exBins rfl
    (fun _ => none) exBuild.1 cutFolder (after_ok exBuild_ok).1 hleft (7/10) false [] 0 [1, 0] [1, 0] true
    (by simp) (by decide) (by decide) .all (Or.inr ⟨rfl, rfl⟩)
  obtain ⟨hs', rs, h3, h4, -⟩ := C121_values (α := ℕ) exEnv exSim ex_described [exSky, exSky] exBins rfl
    (fun _ => none) exBuild.1 cutFolder (after_ok exBuild_ok).1 hleft (7/10) false [] 0 [1, 0] [1, 0] true
    (by simp) (by decide) (by decide) .all (Or.inr ⟨rfl, rfl⟩) it h1 [cutCall] "mass" (by
      intro m hm o ho
      simp only [List.mem_cons, List.not_mem_nil, or_false] at hm
      subst hm
      simp only [cutCall, op, Option.some.injEq] at ho
      subst ho
      simp [Handler.Spec.changes]) (by decide) (by
      have key : ∀ i ∈ [1, 0], (match cutFolder i with
          | some f => (f.dataset "mass").isSome
          | none => false) = true := by decide +kernel
      intro i hi
      have := key i hi
      cases hf : cutFolder i with
      | none => rw [hf] at this; cases this
      | some f => rw [hf] at this; exact ⟨f, rfl, this⟩) true (some true)
  exact ⟨it, h1, h2, hs', rs, h3, h4⟩

/-! ## Statistics in bins -/

/-- The number of objects above a redshift the caller gives as `zmin`. -/
def deepCount (args : PyDict Name (Arg ℚ)) : Except Err ℕ :=
  match args.get? "redshift", args.get? "zmin" with
  | some (.arr vs), some (.scalar z) => .ok (vs.filter (fun v => match v with
      | some x => decide (z ≤ x)
      | none => false)).length
  | some (.arr vs), none => .ok vs.length
  | _, _ => .error .typeError

theorem deep_keyworded : Keyworded deepCount := by
  intro o o' h
  unfold deepCount
  rw [h, h]

/-- C121 as stated for statistics in bins: each lightcone is evaluated with the keywords given. -/
def C121_evo_full : Prop :=
  ∀ (f : PyDict Name (Arg ℚ) → Except Err ℕ) (_ : Keyworded f) (a : EvoArgs ℚ)
    (vol : ℕ → Bool → ℚ → ℚ → Except Err ℚ) (bins : List ℚ) (hs hs' : PyDict ℕ (State ℚ))
    (other o' : PyDict Name (Arg ℚ)) (rs : PyDict ℕ (List ℚ × List ℕ)),
    (∀ q ∈ hs, Handler.Spec.Reachable q.2) → evoAll bins f a vol hs other = ((hs', o'), .ok rs) →
    ∀ k s, hs.get? k = some s →
      ∃ r, (evalStatEvo s bins f a (vol k) other).2 = .ok r ∧ rs.get? k = some r

/-- The two lightcones after building. -/
def fullSet : Except Err (Iter ℚ) :=
  openSet (fun i => openCone exSim (exBuild.1 i) (7/10) false [])
    (fun _ => ⟨0, coneMeta (exSt 5) (7/10) false⟩) [] (.list [0, 1]) true

/-- Two equal lightcones, the same statistic with `zmin` 12: one object in the first, two in the second. -/
theorem full_differs : (match fullSet with
    | .error _ => false
    | .ok it => (match evoAll [9, 16] deepCount { kwargs := ["redshift"] } (fun _ _ _ _ => .ok 1) it.handlers
          [("zmin", .scalar 12)] with
      | (_, .ok rs) => decide (rs = [(0, ([9, 16], [1])), (1, ([9, 16], [2]))])
      | (_, .error _) => false) && (match it.handlers.get? 1 with
        | some s => decide ((evalStatEvo s [9, 16] deepCount { kwargs := ["redshift"] } (fun _ _ _ => .ok 1)
            [("zmin", .scalar 12)]).2 = .ok ([9, 16], [1]))
        | none => false)) = true := by
  decide +kernel

theorem C121_evo_full_false : ¬ C121_evo_full := by
  intro H
  obtain ⟨it, h1, -, -, h2, -, h3⟩ := C121_opens exEnv exSim ex_described [exSky, exSky] exBins rfl
    (fun _ => none) exBuild.1 exBuild.1 (after_ok exBuild_ok).1 ⟨[], exBuild.1, .scalar [], 0, rfl, rfl⟩
    (7/10) false [] 0 [] [0, 1] true (by simp) (by decide) (by decide) (.list [0, 1]) (Or.inl rfl)
  have hd := full_differs
  have h1' : fullSet = .ok it := h1
  rw [h1'] at hd
  simp only [Bool.and_eq_true] at hd
  obtain ⟨hd1, hd2⟩ := hd
  rcases hcall : evoAll [9, 16] deepCount { kwargs := ["redshift"] } (fun _ _ _ _ => .ok 1) it.handlers
          [("zmin", .scalar 12)] with ⟨⟨hs', o'⟩, e | rs⟩
  · rw [hcall] at hd1; cases hd1
  rw [hcall] at hd1
  simp only [decide_eq_true_eq] at hd1
  obtain ⟨s, hs1, hs2⟩ := h3 1 (by simp)
  rw [hs2] at hd2
  simp only [decide_eq_true_eq] at hd2
  obtain ⟨r, r1, r2⟩ := H deepCount deep_keyworded { kwargs := ["redshift"] } (fun _ _ _ _ => .ok 1) [9, 16]
    it.handlers hs' [("zmin", .scalar 12)] o' rs (by
      rintro ⟨i, s⟩ hq
      have hi : i ∈ [0, 1] := by
        rw [← h2]
        exact List.mem_map.2 ⟨_, hq, rfl⟩
      have hget := mem_get? _ (by rw [h2]; decide) i s hq
      obtain ⟨st, a1, a2⟩ := h3 i hi
      rw [hget] at a2
      cases a2
      obtain ⟨c, f, st', -, -, -, b1, b2, -⟩ := LC.C119_opens exEnv exSim ex_described [exSky, exSky] exBins rfl
        (fun _ => none) exBuild.1 exBuild.1 (after_ok exBuild_ok).1 ⟨[], exBuild.1, .scalar [], 0, rfl, rfl⟩ i
        exSky (by
          simp only [List.mem_cons, List.not_mem_nil, or_false] at hi
          rcases hi with rfl | rfl <;> rfl) (7/10) false []
      rw [a1] at b1
      cases b1
      exact b2) hcall 1 s hs2
  rw [hd2] at r1
  cases r1
  rw [hd1] at r2
  exact absurd r2 (by decide +kernel)

/-- Numbers given twice. -/
example : (match openSet (fun i => openCone exSim (exBuild.1 i) (7/10) false [])
    (fun _ => ⟨0, coneMeta (exSt 5) (7/10) false⟩) [] (.list [1, 0, 1]) true with
    | .ok it => decide (it.n = 3 ∧ it.handlers.keys = [1, 0])
    | .error _ => false) = true := by decide +kernel

end Verif.LCI
