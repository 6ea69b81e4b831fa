import Verif.Spec.Ready
import Verif.Lemmas.Galprops
import Verif.Props.HandlerMake

set_option linter.unusedSectionVars false

/-!
# Lemmas about ready-made properties
-/

namespace Verif.Ready

open Verif.Gal (Fn Rng World YFit Call Out zipA zipL scatterOwn log10normal centre spread shaped given ndmin1)
open Verif.Gal.Spec (Lawful)
open Verif.Handler (Name State hasProperty returnProperty collectArgs)
open Verif.Ready.Spec

variable {K G : Type} [Field K] [LinearOrder K] [IsStrictOrderedRing K]

theorem allSome_some (l : List K) : allSome (l.map some) = some l := by
  induction l with
  | nil => rfl
  | cons x l ih => simp [allSome, ih]

/-- A list by its positions. -/
theorem range_self {α : Type} (l : List α) (n : ℕ) (a : α) (h : l.length = n) :
    l = (List.range n).map (fun i => l.getD i a) := by
  apply List.ext_getElem?
  intro i
  simp only [List.getElem?_map, List.getElem?_range, List.getD_eq_getElem?_getD]
  by_cases hi : i < n
  · simp [hi, List.getElem?_eq_getElem (show i < l.length by omega)]
  · rw [List.getElem?_eq_none (by omega)]; simp [hi]

theorem map_range' {α β : Type} (f : α → β) (l : List α) (n : ℕ) (a : α) (h : l.length = n) :
    l.map f = (List.range n).map (fun i => f (l.getD i a)) := by
  conv_lhs => rw [range_self l n a h]
  simp

theorem zip_range {α β γ : Type} (f : α → β → γ) (l : List α) (l' : List β) (n : ℕ) (a : α) (b : β)
    (h : l.length = n) (h' : l'.length = n) :
    List.zipWith f l l' = (List.range n).map (fun i => f (l.getD i a) (l'.getD i b)) := by
  conv_lhs => rw [range_self l n a h, range_self l' n b h']
  rw [List.zipWith_map, List.zipWith_self]

theorem getD_range {α : Type} (f : ℕ → α) (n i : ℕ) (a : α) (h : i < n) :
    ((List.range n).map f).getD i a = f i := by
  simp [List.getD_eq_getElem?_getD, h]

/-! ## Scatter -/

/-- The values of halos, given by their position. -/
abbrev tab (n : ℕ) (f : ℕ → K) : Gal.Arg K := .many ((List.range n).map f)

theorem zipA_tab (f : K → K → K) (n : ℕ) (g h : ℕ → K) :
    zipA f (tab n g) (tab n h) = .ok (tab n (fun i => f (g i) (h i))) := by
  simp only [zipA, tab]
  rw [Gal.zipL_same _ _ _ (by simp)]
  simp [Except.map, List.zipWith_map, List.zipWith_self]

theorem zipA_one_tab (f : K → K → K) (n : ℕ) (x : K) (h : ℕ → K) :
    zipA f (.one x) (tab n h) = .ok (tab n (fun i => f x (h i))) := by
  simp [zipA, tab, Function.comp_def]

theorem zipA_tab_one (f : K → K → K) (n : ℕ) (x : K) (h : ℕ → K) :
    zipA f (tab n h) (.one x) = .ok (tab n (fun i => f (h i) x)) := by
  simp [zipA, tab, Function.comp_def]

theorem zipA_single_tab (f : K → K → K) (n : ℕ) (x : K) (h : ℕ → K) :
    zipA f (.many [x]) (tab n h) = .ok (tab n (fun i => f x (h i))) := by
  simp only [zipA, tab, zipL]
  split
  · rename_i hl
    simp only [List.length_cons, List.length_nil, List.length_map, List.length_range] at hl
    subst hl
    simp [Except.map, List.range_succ]
  · simp [Except.map, Function.comp_def]

theorem normal_tab {R : Rng K G} (hR : Lawful R) (n : ℕ) (g : G) :
    Gal.Arg.many (R.normal n g).1 = tab n (fun i => (R.normal n g).1.getD i 0) := by
  rw [tab, ← range_self _ n 0 (hR.normal n g)]

theorem log10normal_tab (fn : Fn K) {R : Rng K G} (hR : Lawful R) (n : ℕ) (f : ℕ → K) (d : K) (pr : Bool) (g : G) :
    (log10normal fn R (tab n f) (.one d) pr g).1 =
      .ok (tab n (fun i => (if pr then dexMean fn d else dex fn d) (f i) ((R.normal n g).1.getD i 0))) := by
  unfold log10normal
  cases pr
  · simp only [centre, Bool.false_eq_true, if_false, shaped, Gal.Arg.size, tab, List.length_map, List.length_range]
    have := normal_tab hR n g
    rw [this, spread, zipA_one_tab]
    simp only
    exact zipA_tab _ _ _ _
  · have : centre fn (tab n f) (.one d) true = .ok (tab n (fun i => f i / fn.pow 10 (d ^ 2 * fn.ln10 / 2))) := by
      simp only [centre, if_true]; exact zipA_tab_one _ _ _ _
    rw [this]
    simp only [shaped, Gal.Arg.size, tab, List.length_map, List.length_range]
    have := normal_tab hR n g
    rw [this, spread, zipA_one_tab]
    simp only
    exact zipA_tab _ _ _ _

theorem scatterOwn_tab (fn : Fn K) {R : Rng K G} (hR : Lawful R) (n : ℕ) (f : ℕ → K) (d : K) (pr : Bool)
    (w : World G) :
    (scatterOwn fn R true (tab n f) (.one d) pr w).1 =
      .ok (tab n (fun i => (if pr then dexMean fn d else dex fn d) (f i) ((R.normal n w.own).1.getD i 0))) := by
  unfold scatterOwn
  simp only [if_true]
  exact log10normal_tab fn hR n f d pr w.own

/-- Scatter of a width for each halo. -/
theorem scatterOwn_tabs (fn : Fn K) {R : Rng K G} (hR : Lawful R) (n : ℕ) (f d : ℕ → K) (w : World G) :
    (scatterOwn fn R true (tab n f) (tab n d) false w).1 =
      .ok (tab n (fun i => dex fn (d i) (f i) ((R.normal n w.own).1.getD i 0))) := by
  unfold scatterOwn
  simp only [if_true, log10normal, centre, Bool.false_eq_true, if_false, shaped, Gal.Arg.size, tab, List.length_map,
    List.length_range]
  have := normal_tab hR n w.own
  rw [this, spread, zipA_tab]
  simp only
  exact zipA_tab _ _ _ _

theorem scatterOwn_single (fn : Fn K) {R : Rng K G} (hR : Lawful R) (n : ℕ) (f : ℕ → K) (d : K) (w : World G) :
    (scatterOwn fn R true (tab n f) (.many [d]) false w).1 =
      .ok (tab n (fun i => dex fn d (f i) ((R.normal n w.own).1.getD i 0))) := by
  unfold scatterOwn
  simp only [if_true, log10normal, centre, Bool.false_eq_true, if_false, shaped, Gal.Arg.size, tab, List.length_map,
    List.length_range]
  have := normal_tab hR n w.own
  rw [this, spread, zipA_single_tab]
  simp only
  exact zipA_tab _ _ _ _

theorem switchOff_tab (n : ℕ) (l u q : ℕ → K) :
    Gal.switchOff ((List.range n).map l) ((List.range n).map u) ((List.range n).map q) =
      .ok ((List.range n).map (fun i => if q i < u i then 0 else l i)) := by
  unfold Gal.switchOff
  rw [Gal.zipL_same _ _ _ (by simp)]
  simp only [List.zipWith_map, List.zipWith_self, List.length_map, if_true, gt_iff_lt, decide_eq_true_eq]

theorem switchOff_single (n : ℕ) (l u : ℕ → K) (q : K) :
    Gal.switchOff ((List.range n).map l) ((List.range n).map u) [q] =
      .ok ((List.range n).map (fun i => if q < u i then 0 else l i)) := by
  unfold Gal.switchOff
  rw [Gal.zipL_single]
  simp only [List.map_map, List.zipWith_map, List.zipWith_self, List.length_map, if_true, gt_iff_lt, decide_eq_true_eq,
    Function.comp_apply]

theorem zipL_swap {α β γ : Type} (f : α → β → γ) (xs : List α) (ys : List β) :
    zipL f xs ys = zipL (fun y x => f x y) ys xs := by
  unfold zipL
  by_cases h : xs.length = ys.length
  · rw [if_pos h, if_pos h.symm, List.zipWith_comm]
  · rw [if_neg h, if_neg (fun e => h e.symm)]
    rcases xs with _ | ⟨x, _ | ⟨x', xs⟩⟩ <;> rcases ys with _ | ⟨y, _ | ⟨y', ys⟩⟩ <;> simp_all

theorem zipA_swap (f : K → K → K) (a b : Gal.Arg K) : zipA f a b = zipA (fun y x => f x y) b a := by
  cases a <;> cases b <;> simp only [zipA]
  rw [zipL_swap]

/-! ## Arguments -/

theorem collectArgs_any (s : State K) (remap : PyDict Name Name) (u g : Bool) (a : Name → Handler.Arg K)
    (kws : List Name)
    (h : ∀ kw ∈ kws,
      (hasProperty s ((remap.get? kw).getD kw) = true ∧ ∃ vs, a kw = .arr vs ∧
        returnProperty s ((remap.get? kw).getD kw) u (some g) = .ok (some vs)) ∨
      (hasProperty s ((remap.get? kw).getD kw) = false ∧ ∃ x, a kw = .scalar x ∧
        s.extra.get? ((remap.get? kw).getD kw) = some x))
    (acc : PyDict Name (Handler.Arg K)) :
    ∃ out, collectArgs s remap u g acc kws = .ok out ∧ (∀ kw ∈ kws, out.get? kw = some (a kw)) ∧
      (∀ q, q ∉ kws → out.get? q = acc.get? q) := by
  induction kws generalizing acc with
  | nil => exact ⟨acc, rfl, by simp, by simp⟩
  | cons kw kws ih =>
    obtain ⟨out, o1, o2, o3⟩ := ih (fun k hk => h k (by simp [hk])) (acc.set kw (a kw))
    refine ⟨out, ?_, ?_, ?_⟩
    · unfold collectArgs
      dsimp only
      rcases h kw (by simp) with ⟨h1, vs, h2, h3⟩ | ⟨h1, x, h2, h3⟩
      · rw [if_pos h1, h3, ← o1, h2]
      · rw [if_neg (by simp [h1]), h3, ← o1, h2]
    · intro q hq
      by_cases hqk : q ∈ kws
      · exact o2 q hqk
      · rcases List.mem_cons.1 hq with rfl | hq
        · rw [o3 q hqk]; simp
        · exact absurd hq hqk
    · intro q hq
      simp only [List.mem_cons, not_or] at hq
      rw [o3 q hq.2]
      have hne : ¬ kw = q := fun e => hq.1 e.symm
      simp [hne]

end Verif.Ready
