import Mathlib.Algebra.Order.Floor.Ring
import Verif.Model.LCFile
import Verif.Lemmas.LightCone

/-!
# Lemmas about the files of lightcones
-/

set_option linter.unusedSectionVars false

namespace Verif.LC

open Verif.Sim (Err SnapMeta)
open Matrix

variable {K : Type} [Field K] [LinearOrder K] [IsStrictOrderedRing K] [FloorRing K]

/-- The changes of file `i` in a list of steps. -/
def effsOf (i : ℕ) (p : List (Step K)) : List (FEff K) :=
  p.filterMap (fun s => match s with
    | .eff j e => if j = i then some e else none
    | .fail _ => none)

@[simp] theorem effsOf_nil (i : ℕ) : effsOf i ([] : List (Step K)) = [] := rfl

@[simp] theorem effsOf_append (i : ℕ) (p q : List (Step K)) :
    effsOf i (p ++ q) = effsOf i p ++ effsOf i q := by
  unfold effsOf
  rw [List.filterMap_append]

theorem effsOf_flatMap {α : Type} (i : ℕ) (l : List α) (f : α → List (Step K)) :
    effsOf i (l.flatMap f) = l.flatMap (fun x => effsOf i (f x)) := by
  induction l with
  | nil => rfl
  | cons a l ih => simp [List.flatMap_cons, ih]

theorem effsOf_cons_eff (i j : ℕ) (e : FEff K) (p : List (Step K)) :
    effsOf i (.eff j e :: p) = if j = i then e :: effsOf i p else effsOf i p := by
  unfold effsOf
  rw [List.filterMap_cons]
  by_cases h : j = i <;> simp [h]

theorem effsOf_map_same {α : Type} (i j : ℕ) (l : List α) (f : α → FEff K) :
    effsOf i (l.map (fun x => Step.eff j (f x))) = if j = i then l.map f else [] := by
  induction l with
  | nil => simp
  | cons a l ih =>
    rw [List.map_cons, effsOf_cons_eff, ih]
    split <;> rfl

/-- Steps without exceptions. -/
def NoFail (p : List (Step K)) : Prop := ∀ s ∈ p, ∀ e, s ≠ .fail e

theorem NoFail.append {p q : List (Step K)} : NoFail (p ++ q) ↔ NoFail p ∧ NoFail q := by
  unfold NoFail
  constructor
  · intro h
    exact ⟨fun s hs => h s (List.mem_append_left _ hs), fun s hs => h s (List.mem_append_right _ hs)⟩
  · rintro ⟨h1, h2⟩ s hs
    rcases List.mem_append.1 hs with hs | hs
    · exact h1 s hs
    · exact h2 s hs

theorem noFail_flatMap {α : Type} {l : List α} {f : α → List (Step K)} :
    NoFail (l.flatMap f) ↔ ∀ x ∈ l, NoFail (f x) := by
  unfold NoFail
  constructor
  · intro h x hx s hs
    exact h s (List.mem_flatMap.2 ⟨x, hx, hs⟩)
  · intro h s hs
    obtain ⟨x, hx, hs⟩ := List.mem_flatMap.1 hs
    exact h x hx s hs

/-- Changes of one file. -/
def runFile : List (FEff K) → Option (LCFile K) → Except Err (Option (LCFile K))
  | [], f => .ok f
  | e :: es, f =>
    match stepFile f e with
    | .error er => .error er
    | .ok f' => runFile es (some f')

theorem runFile_append (a b : List (FEff K)) (f f' : Option (LCFile K)) :
    runFile (a ++ b) f = .ok f' ↔ ∃ m, runFile a f = .ok m ∧ runFile b m = .ok f' := by
  induction a generalizing f with
  | nil => simp [runFile]
  | cons e a ih =>
    simp only [List.cons_append, runFile]
    rcases stepFile f e with er | g
    · simp
    · simp only
      exact ih _

/-- A call that ends without exception: the files result from their changes. -/
theorem exec_ok {p : List (Step K)} {d d' : Folder K} (h : exec p d = (d', .ok ())) :
    NoFail p ∧ ∀ i, runFile (effsOf i p) (d i) = .ok (d' i) := by
  induction p generalizing d with
  | nil =>
    unfold exec at h
    simp only [Prod.mk.injEq, and_true] at h
    subst h
    exact ⟨by intro s hs; simp at hs, fun i => rfl⟩
  | cons s p ih =>
    cases s with
    | fail e =>
      unfold exec at h
      simp at h
    | eff j e =>
      unfold exec at h
      rcases hs : stepFile (d j) e with er | f
      · rw [hs] at h
        simp at h
      · rw [hs] at h
        simp only at h
        obtain ⟨h1, h2⟩ := ih h
        refine ⟨?_, ?_⟩
        · intro s hs e'
          rcases List.mem_cons.1 hs with rfl | hs
          · intro h; cases h
          · exact h1 s hs e'
        · intro i
          rw [effsOf_cons_eff]
          have := h2 i
          by_cases hj : j = i
          · subst hj
            rw [if_pos rfl]
            unfold runFile
            rw [hs]
            simpa using this
          · rw [if_neg hj]
            rwa [Function.update_of_ne (Ne.symm hj)] at this

/-- Every call executes a part of its steps, from the start, without exception. -/
theorem exec_trace (p : List (Step K)) (d : Folder K) :
    ∃ p1, p1 <+: p ∧ exec p1 d = ((exec p d).1, .ok ()) := by
  induction p generalizing d with
  | nil => exact ⟨[], List.prefix_rfl, rfl⟩
  | cons s p ih =>
    cases s with
    | fail e => exact ⟨[], List.nil_prefix, rfl⟩
    | eff j e =>
      rcases hs : stepFile (d j) e with er | f
      · refine ⟨[], List.nil_prefix, ?_⟩
        unfold exec
        rw [hs]
      · obtain ⟨p1, h1, h2⟩ := ih (Function.update d j (some f))
        refine ⟨.eff j e :: p1, by simpa using h1, ?_⟩
        unfold exec
        rw [hs]
        exact h2

theorem effsOf_prefix {p1 p : List (Step K)} (h : p1 <+: p) (i : ℕ) :
    effsOf i p1 <+: effsOf i p := by
  obtain ⟨q, rfl⟩ := h
  rw [effsOf_append]
  exact List.prefix_append _ _

theorem NoFail.prefix {p1 p : List (Step K)} (h : NoFail p) (hp : p1 <+: p) : NoFail p1 := by
  obtain ⟨q, rfl⟩ := hp
  exact (NoFail.append.1 h).1

/-- The state after a crash or an exception, file by file. -/
theorem crash_file (p : List (Step K)) (d : Folder K) (k : ℕ) :
    ∃ p1, p1 <+: p ∧ NoFail p1 ∧
      ∀ i, runFile (effsOf i p1) (d i) = .ok ((exec (p.take k) d).1 i) := by
  obtain ⟨p1, h1, h2⟩ := exec_trace (p.take k) d
  obtain ⟨h3, h4⟩ := exec_ok h2
  exact ⟨p1, h1.trans (List.take_prefix _ _), h3, h4⟩

/-- A prefix of `a ++ b` is a prefix of `a` or contains `a`. -/
theorem prefix_append_cases {α : Type} {p a b : List α} (h : p <+: a ++ b) :
    p <+: a ∨ ∃ b1, b1 <+: b ∧ p = a ++ b1 := by
  obtain ⟨q, hq⟩ := h
  rcases List.append_eq_append_iff.1 hq with ⟨c, hc1, hc2⟩ | ⟨c, hc1, hc2⟩
  · exact Or.inl ⟨c, hc1.symm⟩
  · exact Or.inr ⟨c, ⟨q, hc2.symm⟩, hc1⟩

/-! ## Building -/

theorem runFile_appends (l : List (List (Row K))) (f : LCFile K) :
    runFile (l.map FEff.append) (some f) = .ok (some { f with
      rows := if l = [] then f.rows else some (f.rows.getD [] ++ l.flatten),
      tab := addIndex f.tab l.flatten }) := by
  induction l generalizing f with
  | nil => simp [runFile, addIndex_nil]
  | cons r l ih =>
    rw [List.map_cons, runFile]
    simp only [stepFile, LCFile.step]
    rw [ih]
    by_cases h : l = []
    · subst h
      simp [addIndex_nil]
    · simp [h, addIndex_append]

/-- Of a list of steps for each lightcone, those for lightcone `i`. -/
theorem effsOf_skies (skies : List (Sky K)) (i : ℕ) (sky : Sky K) (hi : skies[i]? = some sky)
    (g : Sky K × ℕ → List (Step K)) (hg : ∀ q, q.2 ≠ i → effsOf i (g q) = []) :
    effsOf i (skies.zipIdx.flatMap g) = effsOf i (g (sky, i)) := by
  have key : ∀ (l : List (Sky K)) (m : ℕ), m ≤ i → l[i - m]? = some sky →
      effsOf i ((l.zipIdx m).flatMap g) = effsOf i (g (sky, i)) := by
    intro l
    induction l with
    | nil => intro m _ h; simp at h
    | cons a l ih =>
      intro m hm h
      rw [List.zipIdx_cons, List.flatMap_cons, effsOf_append]
      rcases Nat.lt_or_ge m i with hlt | hge
      · rw [hg (a, m) (by simp only; omega), List.nil_append]
        apply ih (m + 1) hlt
        have e : i - m = (i - (m + 1)) + 1 := by omega
        rw [e, List.getElem?_cons_succ] at h
        exact h
      · have hmi : m = i := by omega
        subst hmi
        rw [Nat.sub_self, List.getElem?_cons_zero, Option.some.injEq] at h
        subst h
        have hrest : effsOf m ((l.zipIdx (m + 1)).flatMap g) = [] := by
          rw [effsOf_flatMap, List.flatMap_eq_nil_iff]
          intro q hq
          apply hg
          have := List.le_snd_of_mem_zipIdx hq
          omega
        rw [hrest, List.append_nil]
  exact key skies 0 (Nat.zero_le _) (by simpa using hi)

theorem effsOf_skies_none (skies : List (Sky K)) (i : ℕ) (hi : skies.length ≤ i)
    (g : Sky K × ℕ → List (Step K)) (hg : ∀ q, q.2 ≠ i → effsOf i (g q) = []) :
    effsOf i (skies.zipIdx.flatMap g) = [] := by
  rw [effsOf_flatMap, List.flatMap_eq_nil_iff]
  rintro ⟨a, m⟩ hq
  apply hg
  have := List.snd_lt_of_mem_zipIdx hq
  simp only at this ⊢
  omega

theorem fillPlan_cone (st : Settings K) (skies : List (Sky K)) (data : ℕ → SnapData K) (i : ℕ)
    (sky : Sky K) (hi : skies[i]? = some sky) :
    ∀ (snaps : List (SnapMeta K)) (c : Cone K), NoFail (fillPlan st skies data snaps) →
    ∃ l : List (List (Row K)), effsOf i (fillPlan st skies data snaps) = l.map FEff.append ∧
      coneLoop st sky data snaps c = .ok ⟨c.rows ++ l.flatten, addIndex c.tab l.flatten⟩ := by
  intro snaps
  induction snaps with
  | nil =>
    intro c _
    exact ⟨[], rfl, by simp [coneLoop, addIndex_nil]⟩
  | cons s snaps ih =>
    intro c hnf
    unfold fillPlan at hnf ⊢
    rw [List.flatMap_cons] at hnf ⊢
    obtain ⟨h1, h2⟩ := NoFail.append.1 hnf
    rw [effsOf_append]
    unfold coneLoop
    rcases hl : loaded st (data s.index) with e | halos
    · rw [hl] at h1
      exact absurd rfl (h1 (.fail e) (by simp) e)
    · rw [hl] at h1
      simp only at h1 ⊢
      have hmem : (sky, i) ∈ skies.zipIdx := by
        rw [List.mem_zipIdx_iff_getElem?]
        exact hi
      have h3 := (noFail_flatMap.1 h1) (sky, i) hmem
      simp only at h3
      rcases hs : snapSlices st sky s halos with e | slices
      · rw [hs] at h3
        exact absurd rfl (h3 (.fail e) (by simp) e)
      · simp only
        obtain ⟨l, hl1, hl2⟩ := ih (slices.foldl Cone.append c) h2
        refine ⟨slices ++ l, ?_, ?_⟩
        · rw [List.map_append]
          congr 1
          rw [effsOf_skies skies i sky hi]
          · simp only [hs]
            rw [effsOf_map_same, if_pos rfl]
          · intro q hq
            rcases hq' : snapSlices st q.1 s halos with e | sl
            · rfl
            · simp only
              rw [effsOf_map_same, if_neg hq]
        · rw [hl2, foldl_append]
          simp [addIndex_append]

end Verif.LC
