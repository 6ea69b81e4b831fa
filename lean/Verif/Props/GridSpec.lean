import Verif.Props.GridAdd

/-!
# C27: spectra added in chunks
-/

set_option linter.unusedSectionVars false

namespace Verif.Map

open Verif.Sim (Err)
open Spec

section
variable {K V : Type} [Field K] [LinearOrder K] [IsStrictOrderedRing K] [FloorRing K]
variable [AddCommGroup V]

/-! ## Arrays -/

/-- The additions for several properties. -/
def specAdd (a : Arr V) (kept : List (List ℕ × List V)) (ax : ℕ) (ps : List ℕ) : Arr V :=
  ps.foldl (fun b p => b.addAll (specTerms kept ax p)) a

theorem specAdd_addAll (a : Arr V) (kept : List (List ℕ × List V)) (ax : ℕ) (ps : List ℕ)
    (m : List (List ℕ × V)) : specAdd (a.addAll m) kept ax ps = (specAdd a kept ax ps).addAll m := by
  induction ps generalizing a with
  | nil => rfl
  | cons p ps ih =>
    show specAdd ((a.addAll m).addAll (specTerms kept ax p)) kept ax ps =
      (specAdd (a.addAll (specTerms kept ax p)) kept ax ps).addAll m
    rw [addAll_comm, ih]

theorem specTerms_append (k l : List (List ℕ × List V)) (ax p : ℕ) :
    specTerms (k ++ l) ax p = specTerms k ax p ++ specTerms l ax p := by
  simp [specTerms]

theorem specAdd_append (a : Arr V) (k l : List (List ℕ × List V)) (ax : ℕ) (ps : List ℕ) :
    specAdd a (k ++ l) ax ps = specAdd (specAdd a k ax ps) l ax ps := by
  induction ps generalizing a with
  | nil => rfl
  | cons p ps ih =>
    show specAdd (a.addAll (specTerms (k ++ l) ax p)) (k ++ l) ax ps =
      specAdd ((specAdd (a.addAll (specTerms k ax p)) k ax ps).addAll (specTerms l ax p)) l ax ps
    rw [ih, specTerms_append, addAll_append, specAdd_addAll]

theorem specAdd_nil (a : Arr V) (ax : ℕ) (ps : List ℕ) : specAdd a [] ax ps = a := by
  induction ps generalizing a with
  | nil => rfl
  | cons p ps ih => exact ih a

theorem specAdd_shape (a : Arr V) (k : List (List ℕ × List V)) (ax : ℕ) (ps : List ℕ) :
    (specAdd a k ax ps).shape = a.shape := by
  induction ps generalizing a with
  | nil => rfl
  | cons p ps ih => exact (ih _).trans (addAll_shape _ _)

/-- Adding to the last property of a grid to which `v` was just added is adding to `v`. -/
theorem concat_addAll (a v : Arr V) (kept : List (List ℕ × List V)) (ax n : ℕ)
    (hn : a.shape.getLastD 0 = n) (hpos : 0 < n) :
    (a.concatLast v).addAll (specTerms kept ax n) =
      a.concatLast (v.addAll (specTerms kept ax 0)) := by
  apply Arr.ext'
  · rw [addAll_shape]
    simp only [Arr.concatLast, addAll_shape]
  · intro j
    rw [addAll_get]
    show (if j.getLastD 0 < a.shape.getLastD 0 then _ else _) + _ =
      (if j.getLastD 0 < a.shape.getLastD 0 then _ else _)
    rw [hn]
    by_cases hj : j.getLastD 0 < n
    · rw [if_pos hj, if_pos hj, List.filter_eq_nil_iff.2, List.map_nil, List.sum_nil, add_zero]
      intro q hq
      simp only [specTerms, List.mem_flatMap, List.mem_map] at hq
      obtain ⟨x, -, y, -, rfl⟩ := hq
      simp only [decide_eq_true_eq]
      intro h
      rw [← h, List.getLastD_concat] at hj
      omega
    · rw [if_neg hj, if_neg hj, addAll_get]
      congr 1
      have hne : j ≠ [] := by
        rintro rfl
        exact hj (by simpa using hpos)
      have hjj : j = j.dropLast ++ [j.getLastD 0] := by
        rcases List.eq_nil_or_concat j with rfl | ⟨l, x, rfl⟩
        · exact absurd rfl hne
        · simp
      generalize j.getLastD 0 = t at hj hjj
      generalize j.dropLast = d at hjj
      subst hjj
      unfold specTerms
      induction kept with
      | nil => rfl
      | cons q kept ih =>
        rw [List.flatMap_cons, List.flatMap_cons, List.filter_append, List.filter_append,
          List.map_append, List.map_append, List.sum_append, List.sum_append, ih]
        congr 1
        rw [List.filter_map, List.filter_map, List.map_map, List.map_map]
        have : ((fun q : List ℕ × V => decide (q.1 = d ++ [t])) ∘
              fun r : V × ℕ => (q.1.insertIdx ax r.2 ++ [n], r.1)) =
            ((fun q : List ℕ × V => decide (q.1 = d ++ [t - n])) ∘
              fun r : V × ℕ => (q.1.insertIdx ax r.2 ++ [0], r.1)) := by
          funext r
          simp only [Function.comp, List.append_singleton_inj]
          congr 1
          refine propext (and_congr Iff.rfl ?_)
          omega
        rw [this]
        rfl

/-! ## One chunk -/

/-- The spectrum that is added for an object: the values of the function, or their differences. -/
def contribution (cumulative : Bool) (l : List V) : List V := if cumulative then diff l else l

theorem diff_length (l : List V) : (diff l).length = l.length - 1 := by
  simp [diff]

/-- The function acts object by object, `f` giving one row for each object. -/
def RowWise {A : Type} (spec : List K → List A → Except Err (List (List V))) (axis : List K)
    (f : A → List V) : Prop :=
  ∀ args, spec axis args = .ok (args.map f)

omit [Field K] [LinearOrder K] [IsStrictOrderedRing K] [FloorRing K] in
theorem spectra_ok {A : Type} (spec : List K → List A → Except Err (List (List V)))
    (axis : List K) (f : A → List V) (h : RowWise spec axis f) (loop cumulative : Bool)
    (args : List A) :
    spectra spec axis loop cumulative args =
      .ok (args.map (fun a => contribution cumulative (f a))) := by
  have h1 : evaluate spec axis loop args = .ok (args.map f) := by
    unfold evaluate
    cases loop with
    | false => exact h args
    | true =>
      have : mapE (fun a => spec axis [a]) args = .ok (args.map (fun a => [f a])) := by
        induction args with
        | nil => rfl
        | cons a args ih => simp [mapE, ih, h [a]]
      simp [this]
  unfold spectra
  rw [h1]
  cases cumulative <;> simp [contribution]

/-- The cells of the objects, with their spectra. -/
def located {A : Type} (g : Grid K V) (ax : ℕ) (F : A → List V) (objs : List (List K × A)) :
    List (List ℕ × List V) :=
  keep (g.geo.eraseIdx ax) (objs.map (·.1)) (objs.map (fun o => F o.2))

theorem located_append {A : Type} (g : Grid K V) (ax : ℕ) (F : A → List V)
    (o1 o2 : List (List K × A)) :
    located g ax F (o1 ++ o2) = located g ax F o1 ++ located g ax F o2 := by
  unfold located
  rw [List.map_append, List.map_append, keep_append _ _ _ _ _ (by simp)]

theorem ppa_eq {A : Type} (g : Grid K V) (a : Arr V) (ha : g.grid = some a)
    (hr : ∀ f ∈ g.fourier, f = false) (hd : 2 ≤ g.dim) (ax : ℕ) (hax : ax < g.dim)
    (F : A → List V) (hF : ∀ x, (F x).length = g.nPix.getD ax 0) (objs : List (List K × A))
    (hne : objs ≠ []) (hfit : ∀ o ∈ objs, o.1.length = g.dim - 1) (nw : Bool)
    (ps : Option (List ℕ)) :
    g.addFromPosPlusArray { rows := objs.map (·.1) } (objs.map (fun o => F o.2)) ax nw ps =
      if nw then
        match g.addNewProp (some ((zeros (g.nPix ++ [1])).addAll
          (specTerms (located g ax F objs) ax 0))) with
        | (g', .error e) => (g', .error e)
        | (g', .ok ()) => ({ g' with nObj := g'.nObj + (located g ax F objs).length }, .ok ())
      else
        match g.checkProps ps with
        | .error e => (g, .error e)
        | .ok qs =>
          ({ g with grid := some (specAdd a (located g ax F objs) ax qs),
                    nObj := g.nObj + (located g ax F objs).length }, .ok ()) := by
  have h1 : ¬ g.fourier.any id = true := by
    rw [List.any_eq_true]
    rintro ⟨f, hf, hf'⟩
    rw [hr f hf] at hf'
    cases hf'
  have hax' : axisOf g.dim ax = .ok ax := by
    unfold axisOf
    have : ¬ ((ax : ℤ) < 0) := by omega
    simp only [this, if_false, false_or]
    rw [if_neg (by simpa using hax)]
    simp
  unfold Grid.addFromPosPlusArray
  rw [ha]
  simp only
  rw [if_neg h1, hax']
  simp only
  rw [if_neg (by simpa using hne), if_neg (by omega), if_neg, if_neg (by simp), if_neg]
  · rfl
  · rintro ⟨v, hv, hl⟩
    simp only [List.mem_map] at hv
    obtain ⟨o, -, rfl⟩ := hv
    exact hl (hF _)
  · rintro ⟨r, hr, hl⟩
    simp only [List.mem_map] at hr
    obtain ⟨o, ho, rfl⟩ := hr
    exact hl (hfit o ho)

/-! ## All chunks -/

theorem specLoop_step {A : Type} (spec : List K → List A → Except Err (List (List V)))
    (axis : List K) (f : A → List V) (h : RowWise spec axis f) (loop cumulative : Bool)
    (g : Grid K V) (ax : ℕ)
    (hF : ∀ x, (contribution cumulative (f x)).length = g.nPix.getD ax 0)
    (chunk : List (List K × A)) (rest : List (List (List K × A))) (nw : Bool)
    (ps : Option (List ℕ)) :
    specLoop spec axis loop cumulative ax (g.nPix.getD ax 0) (chunk :: rest) nw ps g =
      match g.addFromPosPlusArray { rows := chunk.map (·.1) }
        (chunk.map (fun o => contribution cumulative (f o.2))) ax nw ps with
      | (g', .error e) => (g', .error e)
      | (g', .ok ()) =>
        if nw then specLoop spec axis loop cumulative ax (g.nPix.getD ax 0) rest false
          (some [g'.nProps - 1]) g'
        else specLoop spec axis loop cumulative ax (g.nPix.getD ax 0) rest false ps g' := by
  have hm : (chunk.map (·.2)).map (fun a => contribution cumulative (f a)) =
      chunk.map (fun o => contribution cumulative (f o.2)) := by
    rw [List.map_map]; rfl
  conv_lhs => unfold specLoop
  rw [spectra_ok spec axis f h]
  simp only [hm]
  rw [if_neg, if_neg (by simp)]
  · rfl
  · rintro ⟨v, hv, hl⟩
    simp only [List.mem_map] at hv
    obtain ⟨o, -, rfl⟩ := hv
    exact hl (hF _)

theorem specLoop_old {A : Type} (spec : List K → List A → Except Err (List (List V)))
    (axis : List K) (f : A → List V) (h : RowWise spec axis f) (loop cumulative : Bool)
    (ax n : ℕ) (hF : ∀ x, (contribution cumulative (f x)).length = n)
    (ps : Option (List ℕ)) (qs : List ℕ) (cs : List (List (List K × A))) :
    ∀ (g : Grid K V) (a : Arr V), g.grid = some a → (∀ f ∈ g.fourier, f = false) → 2 ≤ g.dim →
    ax < g.dim → g.nPix.getD ax 0 = n → (∀ c ∈ cs, c ≠ []) →
    (∀ o ∈ cs.flatten, o.1.length = g.dim - 1) → g.checkProps ps = .ok qs →
    specLoop spec axis loop cumulative ax n cs false ps g =
      ({ g with
          grid := some (specAdd a (located g ax (fun x => contribution cumulative (f x)) cs.flatten)
            ax qs),
          nObj := g.nObj +
            (located g ax (fun x => contribution cumulative (f x)) cs.flatten).length }, .ok ()) := by
  induction cs with
  | nil =>
    intro g a ha _ _ _ _ _ _ _
    have : located g ax (fun x => contribution cumulative (f x)) ([] : List (List K × A)) = [] := rfl
    simp only [List.flatten_nil, this, specAdd_nil, List.length_nil, Nat.add_zero, specLoop, ← ha]
  | cons c cs ih =>
    intro g a ha hr hd hax hn hc hfit hps
    subst hn
    rw [specLoop_step spec axis f h loop cumulative g ax hF,
      ppa_eq g a ha hr hd ax hax (fun x => contribution cumulative (f x)) hF c
      (hc c (List.mem_cons_self ..)) (fun o ho => hfit o (by simp [ho]))]
    simp only [Bool.false_eq_true, if_false, hps]
    rw [ih _ _ (by rfl) (by exact hr) (by exact hd) (by exact hax) (by rfl) (fun d hd => hc d (List.mem_cons_of_mem _ hd))
      (by intro o ho; exact hfit o (by rw [List.flatten_cons]; exact List.mem_append_right _ ho))
      (by exact hps)]
    simp only
    rw [List.flatten_cons, located_append, specAdd_append, List.length_append, Nat.add_assoc]
    rfl

theorem specLoop_new {A : Type} (spec : List K → List A → Except Err (List (List V)))
    (axis : List K) (f : A → List V) (h : RowWise spec axis f) (loop cumulative : Bool)
    (g : Grid K V) (hg : Regular g) (hprops : 0 < g.nProps) (a : Arr V) (ha : g.grid = some a)
    (hr : ∀ f ∈ g.fourier, f = false) (hd : 2 ≤ g.dim) (ax : ℕ) (hax : ax < g.dim)
    (hF : ∀ x, (contribution cumulative (f x)).length = g.nPix.getD ax 0)
    (ps : Option (List ℕ)) (cs : List (List (List K × A))) (hne : cs ≠ []) (hc : ∀ c ∈ cs, c ≠ [])
    (hfit : ∀ o ∈ cs.flatten, o.1.length = g.dim - 1) :
    specLoop spec axis loop cumulative ax (g.nPix.getD ax 0) cs true ps g =
      ({ g with
          grid := some (a.concatLast ((zeros (g.nPix ++ [1])).addAll (specTerms
            (located g ax (fun x => contribution cumulative (f x)) cs.flatten) ax 0))),
          nProps := g.nProps + 1,
          nObj := g.nObj +
            (located g ax (fun x => contribution cumulative (f x)) cs.flatten).length }, .ok ()) := by
  rcases cs with _ | ⟨c, cs⟩
  · exact absurd rfl hne
  have hl2 : a.shape.getLastD 0 = g.nProps := by simp [hg.data a ha]
  set F : A → List V := fun x => contribution cumulative (f x) with hFdef
  have new : ∀ n : Arr V, n.shape = g.nPix ++ [1] → g.addNewProp (some n) =
      ({ g with grid := some (a.concatLast n), nProps := g.nProps + 1 }, .ok ()) := by
    intro n hns
    have hv : newPropValue g n = .ok n := by
      unfold newPropValue
      rw [hns, if_pos (by simp [hg.nPix]), if_pos (by simp)]
    unfold Grid.addNewProp
    rw [ha]
    simp only [hv, show n.shape.getLastD 0 = 1 by simp [hns]]
  rw [specLoop_step spec axis f h loop cumulative g ax hF, ppa_eq g a ha hr hd ax hax F hF c
    (hc c (List.mem_cons_self ..)) (fun o ho => hfit o (by simp [ho]))]
  simp only [if_true]
  rw [new _ (by rw [addAll_shape]; rfl)]
  simp only
  rw [specLoop_old spec axis f h loop cumulative ax (g.nPix.getD ax 0) hF (some [g.nProps + 1 - 1])
    [g.nProps] cs _ _ (by rfl) (by exact hr) (by exact hd) (by exact hax) (by rfl)
    (fun d hd => hc d (List.mem_cons_of_mem _ hd))
    (by intro o ho; exact hfit o (by rw [List.flatten_cons]; exact List.mem_append_right _ ho))
    (by simp [Grid.checkProps])]
  rw [List.flatten_cons, located_append, List.length_append, Nat.add_assoc]
  have e : specAdd (a.concatLast ((zeros (g.nPix ++ [1])).addAll
      (specTerms (located g ax F c) ax 0))) (located g ax F cs.flatten) ax [g.nProps] =
      a.concatLast ((zeros (g.nPix ++ [1])).addAll
        (specTerms (located g ax F c ++ located g ax F cs.flatten) ax 0)) := by
    rw [specTerms_append, addAll_append]
    exact concat_addAll a _ _ ax g.nProps hl2 hprops
  rw [← e]
  rfl

theorem specLoop_error {A : Type} (spec : List K → List A → Except Err (List (List V)))
    (axis : List K) (f : A → List V) (h : RowWise spec axis f) (loop cumulative : Bool)
    (g : Grid K V) (a : Arr V) (ha : g.grid = some a)
    (hr : ∀ f ∈ g.fourier, f = false) (hd : 2 ≤ g.dim) (ax : ℕ) (hax : ax < g.dim)
    (hF : ∀ x, (contribution cumulative (f x)).length = g.nPix.getD ax 0)
    (ps : Option (List ℕ)) (e : Err) (hps : g.checkProps ps = .error e)
    (cs : List (List (List K × A))) (hne : cs ≠ []) (hc : ∀ c ∈ cs, c ≠ [])
    (hfit : ∀ o ∈ cs.flatten, o.1.length = g.dim - 1) :
    specLoop spec axis loop cumulative ax (g.nPix.getD ax 0) cs false ps g = (g, .error e) := by
  rcases cs with _ | ⟨c, cs⟩
  · exact absurd rfl hne
  rw [specLoop_step spec axis f h loop cumulative g ax hF,
    ppa_eq g a ha hr hd ax hax (fun x => contribution cumulative (f x)) hF c
    (hc c (List.mem_cons_self ..)) (fun o ho => hfit o (by simp [ho]))]
  simp only [Bool.false_eq_true, if_false, hps]

theorem prod_pos' (l : List ℕ) (h : ∀ n ∈ l, 0 < n) : 0 < l.prod := by
  induction l with
  | nil => simp
  | cons n l ih =>
    rw [List.prod_cons]
    exact Nat.mul_pos (h n (List.mem_cons_self ..)) (ih (fun m hm => h m (List.mem_cons_of_mem _ hm)))

theorem chunks_flatten {α : Type} (k : ℕ) (hk : 0 < k) (l : List α) : (chunks k l).flatten = l := by
  induction hn : l.length using Nat.strong_induction_on generalizing l with
  | _ n ih =>
    rw [chunks]
    by_cases hl : l = []
    · subst hl; simp
    · rw [dif_pos ⟨hk, hl⟩, List.flatten_cons,
        ih (l.drop k).length (by have := List.length_pos_iff.2 hl; simp; omega) _ rfl,
        List.take_append_drop]

theorem chunks_ne {α : Type} (k : ℕ) (hk : 0 < k) (l : List α) : ∀ c ∈ chunks k l, c ≠ [] := by
  induction hn : l.length using Nat.strong_induction_on generalizing l with
  | _ n ih =>
    rw [chunks]
    by_cases hl : l = []
    · subst hl; simp
    · rw [dif_pos ⟨hk, hl⟩]
      intro c hc
      rcases List.mem_cons.1 hc with rfl | hc
      · have := List.length_pos_iff.2 hl
        intro h
        have := congrArg List.length h
        rw [List.length_take, List.length_nil] at this
        omega
      · exact ih (l.drop k).length (by have := List.length_pos_iff.2 hl; simp; omega) _ rfl c hc

theorem chunks_nonempty {α : Type} (k : ℕ) (hk : 0 < k) (l : List α) (hl : l ≠ []) :
    chunks k l ≠ [] := by
  rw [chunks, dif_pos ⟨hk, hl⟩]; simp

/-! ## C27 -/

/-- The description of the objects handed to `add_from_spec_func`. -/
def specCall {A : Type} (g : Grid K V) (objs : List (List K × A))
    (spec : List K → List A → Except Err (List (List V))) (ax : ℤ)
    (cumulative loop careful nw : Bool) (ps : Option (List ℕ)) : Grid K V × Except Err Unit :=
  g.addFromSpecFunc { rows := objs.map (·.1) } (objs.map (·.2)) spec ax cumulative loop careful nw ps

/-- C27: evaluating the spectra in chunks, or object by object, or in one pass, gives the same grid
and the same outcome, in every mode. -/
theorem C27_chunks {A : Type} (g : Grid K V) (hg : Regular g) (hprops : 0 < g.nProps)
    (hd : 2 ≤ g.dim) (ax : ℤ)
    (objs : List (List K × A)) (hfit : ∀ o ∈ objs, o.1.length = g.dim - 1)
    (spec : List K → List A → Except Err (List (List V))) (f : A → List V) (cumulative : Bool)
    (hspec : ∀ i : ℕ, axisOf g.dim ax = .ok i →
      RowWise spec (if cumulative then g.axes.getD i [] else g.centers.getD i []) f ∧
      ∀ x, (f x).length = g.nPix.getD i 0 + if cumulative then 1 else 0)
    (loop careful nw : Bool) (ps : Option (List ℕ)) :
    specCall g objs spec ax cumulative loop careful nw ps =
      specCall g objs spec ax cumulative false false nw ps := by
  by_cases hn : objs = []
  · subst hn
    unfold specCall Grid.addFromSpecFunc
    simp
  rcases hgr : g.grid with _ | a
  · unfold specCall Grid.addFromSpecFunc
    simp [hgr]
  by_cases hf : g.fourier.any id = true
  · unfold specCall Grid.addFromSpecFunc
    simp only [hgr]
    rw [if_pos hf, if_pos hf]
  have hr : ∀ f ∈ g.fourier, f = false := by
    intro f hf'
    cases f with
    | false => rfl
    | true => exact absurd (List.any_eq_true.2 ⟨true, hf', rfl⟩) hf
  rcases hax : axisOf g.dim ax with e | i
  · unfold specCall Grid.addFromSpecFunc
    simp only [hgr, hax]
  obtain ⟨hrow, hlen⟩ := hspec i hax
  have hi : i < g.dim := by
    unfold axisOf at hax
    simp only at hax
    generalize (if ax < 0 then (g.dim : ℤ) + ax else ax) = t at hax
    by_cases ht : t < 0 ∨ (g.dim : ℤ) ≤ t
    · rw [if_pos ht] at hax; cases hax
    · rw [if_neg ht] at hax
      simp only [Except.ok.injEq] at hax
      omega
  have hF : ∀ x, (contribution cumulative (f x)).length = g.nPix.getD i 0 := by
    intro x
    have := hlen x
    cases cumulative with
    | false => simpa [contribution] using this
    | true => simp only [contribution, if_true, diff_length] at this ⊢; omega
  have hfit3 : ¬ ∃ r ∈ objs.map (·.1), r.length ≠ g.dim - 1 := by
    rintro ⟨r, hr, hl⟩
    simp only [List.mem_map] at hr
    obtain ⟨o, ho, rfl⟩ := hr
    exact hl (hfit o ho)
  have hprod : 0 < (g.nPix.eraseIdx i).prod := by
    apply prod_pos'
    intro n hn
    apply Nat.pos_of_ne_zero
    rintro rfl
    have hmem := List.mem_of_mem_eraseIdx hn
    obtain ⟨k, hk, hk0⟩ := List.getElem_of_mem hmem
    obtain ⟨n, w, c, h2, -, hA⟩ := hg.axis k (by rw [← hg.nPix]; exact hk)
    have := hA.nPix
    rw [List.getElem?_eq_getElem hk, hk0] at this
    simp only [Option.some.injEq] at this
    omega
  have key : ∀ loop careful : Bool, specCall g objs spec ax cumulative loop careful nw ps =
      specLoop spec (if cumulative then g.axes.getD i [] else g.centers.getD i []) loop cumulative i
        (g.nPix.getD i 0)
        (chunks (if careful then (g.nPix.eraseIdx i).prod else objs.length) objs) nw ps g := by
    intro loop careful
    unfold specCall Grid.addFromSpecFunc
    simp only [hgr, hax]
    rw [if_neg hf, if_neg (by simpa using hn), if_neg hfit3, if_neg (by simp)]
    have : (objs.map (·.1)).zip (objs.map (·.2)) = objs := by
      rw [List.zip_map']; simp
    rw [this, List.length_map]
  rw [key, key]
  have size : ∀ careful : Bool,
      0 < (if careful then (g.nPix.eraseIdx i).prod else objs.length) := by
    intro careful
    cases careful with
    | true => exact hprod
    | false => exact List.length_pos_iff.2 hn
  have fl : ∀ careful : Bool,
      (chunks (if careful then (g.nPix.eraseIdx i).prod else objs.length) objs).flatten = objs :=
    fun careful => chunks_flatten _ (size careful) objs
  cases nw with
  | true =>
    rw [specLoop_new spec _ f hrow loop cumulative g hg hprops a hgr hr hd i hi hF ps _
        (chunks_nonempty _ (size _) objs hn) (chunks_ne _ (size _) objs) (by rw [fl]; exact hfit),
      specLoop_new spec _ f hrow false cumulative g hg hprops a hgr hr hd i hi hF ps _
        (chunks_nonempty _ (size _) objs hn) (chunks_ne _ (size _) objs) (by rw [fl]; exact hfit),
      fl, fl]
  | false =>
    rcases hps : g.checkProps ps with e | qs
    · rw [specLoop_error spec _ f hrow loop cumulative g a hgr hr hd i hi hF ps e hps _
          (chunks_nonempty _ (size _) objs hn) (chunks_ne _ (size _) objs) (by rw [fl]; exact hfit),
        specLoop_error spec _ f hrow false cumulative g a hgr hr hd i hi hF ps e hps _
          (chunks_nonempty _ (size _) objs hn) (chunks_ne _ (size _) objs) (by rw [fl]; exact hfit)]
    · rw [specLoop_old spec _ f hrow loop cumulative i _ hF ps qs _ g a hgr hr hd hi rfl
          (chunks_ne _ (size _) objs) (by rw [fl]; exact hfit) hps,
        specLoop_old spec _ f hrow false cumulative i _ hF ps qs _ g a hgr hr hd hi rfl
          (chunks_ne _ (size _) objs) (by rw [fl]; exact hfit) hps, fl, fl]

/-! What the grid holds afterwards. -/

theorem insertIdx_inj (c d : List ℕ) (ax m n : ℕ) (hl : c.length = d.length) (hax : ax ≤ c.length) :
    c.insertIdx ax m = d.insertIdx ax n ↔ c = d ∧ m = n := by
  constructor
  · intro h
    have h1 := congrArg (fun l : List ℕ => l.eraseIdx ax) h
    simp only [List.eraseIdx_insertIdx_self] at h1
    have h2 := congrArg (fun l : List ℕ => l[ax]?) h
    simp only [List.getElem?_insertIdx_self, hax, ← hl, if_true] at h2
    exact ⟨h1, by simpa using h2⟩
  · rintro ⟨rfl, rfl⟩; rfl

theorem zipIdx_pick (l : List V) (m k : ℕ) :
    (((l.zipIdx k).filter (fun r : V × ℕ => decide (r.2 = k + m))).map (·.1)).sum = l.getD m 0 := by
  induction l generalizing m k with
  | nil => simp
  | cons x l ih =>
    rw [List.zipIdx_cons, List.filter_cons]
    cases m with
    | zero =>
      have : (l.zipIdx (k + 1)).filter (fun r : V × ℕ => decide (r.2 = k + 0)) = [] := by
        rw [List.filter_eq_nil_iff]
        intro r hr
        have := List.le_snd_of_mem_zipIdx hr
        simp only [decide_eq_true_eq]
        omega
      simp only [this]
      simp
    | succ m =>
      have h0 : ¬ (k = k + (m + 1)) := by omega
      have h1 : k + (m + 1) = k + 1 + m := by omega
      simp only [h0, decide_false, Bool.false_eq_true, if_false, List.getD_cons_succ]
      rw [h1]
      exact ih m (k + 1)

theorem specTerms_sum (kept : List (List ℕ × List V)) (ax p p' : ℕ) (c : List ℕ) (m : ℕ)
    (hl : ∀ q ∈ kept, q.1.length = c.length) (hax : ax ≤ c.length) :
    (((specTerms kept ax p).filter (fun q => q.1 = c.insertIdx ax m ++ [p'])).map (·.2)).sum =
      if p = p' then ((kept.filter (fun q => q.1 = c)).map (fun q => q.2.getD m 0)).sum else 0 := by
  unfold specTerms
  induction kept with
  | nil => simp
  | cons q kept ih =>
    have hq := hl q (List.mem_cons_self ..)
    rw [List.flatMap_cons, List.filter_append, List.map_append, List.sum_append,
      ih (fun r hr => hl r (List.mem_cons_of_mem _ hr)), List.filter_map, List.map_map]
    have e : ((fun q : List ℕ × V => decide (q.1 = c.insertIdx ax m ++ [p'])) ∘
          fun r : V × ℕ => (q.1.insertIdx ax r.2 ++ [p], r.1)) =
        fun r : V × ℕ => decide ((q.1 = c ∧ r.2 = m) ∧ p = p') := by
      funext r
      simp only [Function.comp, List.append_singleton_inj]
      congr 1
      rw [insertIdx_inj _ _ _ _ _ hq (by omega)]
    rw [e]
    by_cases hp : p = p'
    · rw [if_pos hp, if_pos hp]
      by_cases hc : q.1 = c
      · rw [List.filter_cons_of_pos (by simpa using hc), List.map_cons, List.sum_cons]
        congr 1
        have : (List.filter (fun r : V × ℕ => decide ((q.1 = c ∧ r.2 = m) ∧ p = p')) q.2.zipIdx) =
            q.2.zipIdx.filter (fun r : V × ℕ => decide (r.2 = m)) := by
          congr 1; funext r; simp [hc, hp]
        rw [this]
        have := zipIdx_pick q.2 m 0
        rw [Nat.zero_add] at this
        exact this
      · rw [List.filter_cons_of_neg (by simpa using hc), List.filter_eq_nil_iff.2, List.map_nil,
          List.sum_nil, zero_add]
        intro r _; simp [hc]
    · rw [if_neg hp, if_neg hp, List.filter_eq_nil_iff.2]
      · simp
      · intro r _; simp [hp]

theorem locate_length (geo : List (K × K × K × ℕ)) (row : List K) (c : List ℕ)
    (h : locate geo row = some c) : c.length = geo.length := by
  induction geo generalizing row c with
  | nil =>
    cases row with
    | nil => simp only [locate, Option.some.injEq] at h; subst h; rfl
    | cons x row => simp [locate] at h
  | cons q geo ih =>
    obtain ⟨cc, s, w, n⟩ := q
    cases row with
    | nil => simp [locate] at h
    | cons x row =>
      simp only [locate] at h
      split at h
      · rcases hl : locate geo row with _ | d
        · rw [hl] at h; cases h
        · rw [hl] at h
          simp only [Option.map_some, Option.some.injEq] at h
          subst h
          simp [ih row d hl]
      · cases h

theorem located_length {A : Type} (g : Grid K V) (hg : Regular g) (ax : ℕ) (hax : ax < g.dim)
    (F : A → List V) (objs : List (List K × A)) :
    ∀ q ∈ located g ax F objs, q.1.length = g.dim - 1 := by
  intro q hq
  simp only [located, keep, List.mem_filterMap] at hq
  obtain ⟨o, -, ho⟩ := hq
  rcases hl : locate (g.geo.eraseIdx ax) o.1 with _ | c
  · rw [hl] at ho; cases ho
  · rw [hl] at ho
    simp only [Option.map_some, Option.some.injEq] at ho
    subst ho
    have := locate_length _ _ _ hl
    rw [List.length_eraseIdx_of_lt (by rw [geo_length g hg]; exact hax), geo_length g hg] at this
    exact this

theorem located_objs {A : Type} (g : Grid K V) (ax : ℕ) (F : A → List V)
    (objs : List (List K × A)) :
    located g ax F objs = (objs.map (fun o => (o.1, F o.2))).filterMap
      (fun o => (locate (g.geo.eraseIdx ax) o.1).map (fun c => (c, o.2))) := by
  rw [← keep_objs, List.map_map, List.map_map]
  rfl

theorem specAdd_cell {A : Type} (g : Grid K V) (hg : Regular g) (ax : ℕ) (hax : ax < g.dim)
    (F : A → List V) (objs : List (List K × A)) (qs : List ℕ) (hnd : qs.Nodup) (c : List ℕ)
    (hc : c.length = g.dim - 1) (m p : ℕ) : ∀ a : Arr V,
    cell (specAdd a (located g ax F objs) ax qs) (c.insertIdx ax m) p =
      cell a (c.insertIdx ax m) p + if p ∈ qs then
        cellSum (g.axes.eraseIdx ax) c (objs.map (fun o => (o.1, (F o.2).getD m 0))) else 0 := by
  have hsum := specTerms_sum (located g ax F objs) ax
  induction qs with
  | nil => intro a; simp [specAdd]
  | cons q qs ih =>
    intro a
    rw [List.nodup_cons] at hnd
    show cell (specAdd (a.addAll (specTerms (located g ax F objs) ax q)) _ ax qs) _ p = _
    rw [ih hnd.2]
    show (a.addAll (specTerms (located g ax F objs) ax q)).get (c.insertIdx ax m ++ [p]) + _ = _
    rw [addAll_get, hsum q p c m (by rw [hc]; exact located_length g hg ax hax F objs) (by omega),
      located_objs, keep_sum (g.geo.eraseIdx ax) (g.axes.eraseIdx ax)
        (forall₂_erase (geo_fits g hg) ax) _ (fun v : List V => v.getD m 0) c, List.map_map, add_assoc]
    congr 1
    by_cases hp : p = q
    · subst hp
      simp [hnd.1]
      rfl
    · simp [hp, Ne.symm hp, show ¬ q = p from Ne.symm hp]

open Classical in
/-- The objects inside the grid on the axes other than `ax`. -/
noncomputable def inPlane {A : Type} (g : Grid K V) (ax : ℕ) (objs : List (List K × A)) :
    List (List K × A) :=
  objs.filter (fun o => InGrid (g.axes.eraseIdx ax) o.1)

theorem located_count {A : Type} (g : Grid K V) (hg : Regular g) (ax : ℕ) (F : A → List V)
    (objs : List (List K × A)) : (located g ax F objs).length = (inPlane g ax objs).length := by
  rw [located_objs, List.filterMap_map]
  unfold inPlane
  induction objs with
  | nil => rfl
  | cons o objs ih =>
    rcases hl : locate (g.geo.eraseIdx ax) o.1 with _ | c
    · have : ¬ InGrid (g.axes.eraseIdx ax) o.1 := by
        rintro ⟨c, hc⟩
        rw [← locate_cell_erase g hg, hl] at hc
        cases hc
      simpa [hl, this] using ih
    · have : InGrid (g.axes.eraseIdx ax) o.1 := ⟨c, (locate_cell_erase g hg _ _ _).1 hl⟩
      simpa [hl, this] using ih

/-- What is in the grid afterwards, in all modes but `new_prop`: each spectrum is added, channel by
channel, to the cells above the position of its object. -/
theorem C27_cells {A : Type} (g : Grid K V) (hg : Regular g) (a : Arr V) (ha : g.grid = some a)
    (hr : ∀ f ∈ g.fourier, f = false) (hprops : 0 < g.nProps)
    (hd : 2 ≤ g.dim) (i : ℕ) (hi : i < g.dim)
    (objs : List (List K × A)) (hfit : ∀ o ∈ objs, o.1.length = g.dim - 1)
    (spec : List K → List A → Except Err (List (List V))) (f : A → List V)
    (hrow : RowWise spec (g.centers.getD i []) f) (hlen : ∀ x, (f x).length = g.nPix.getD i 0)
    (loop careful : Bool) (ps : List ℕ) (hps : ∀ p ∈ ps, p < g.nProps) (hnd : ps.Nodup) :
    ∃ g' b, specCall g objs spec i false loop careful false (some ps) = (g', .ok ()) ∧
      g'.grid = some b ∧ b.shape = a.shape ∧ g'.nObj = g.nObj + (inPlane g i objs).length ∧
      ({ g' with grid := none, nObj := 0 } : Grid K V) = { g with grid := none, nObj := 0 } ∧
      ∀ (c : List ℕ) (m p : ℕ), c.length = g.dim - 1 →
        cell b (c.insertIdx i m) p = cell a (c.insertIdx i m) p + if p ∈ ps then
          cellSum (g.axes.eraseIdx i) c (objs.map (fun o => (o.1, (f o.2).getD m 0))) else 0 := by
  have h1 : ¬ g.fourier.any id = true := by
    rw [List.any_eq_true]
    rintro ⟨f, hf, hf'⟩
    rw [hr f hf] at hf'
    cases hf'
  have hax : axisOf g.dim (i : ℤ) = .ok i := by
    unfold axisOf
    have : ¬ ((i : ℤ) < 0) := by omega
    simp only [this, if_false, false_or]
    rw [if_neg (by simpa using hi)]
    simp
  rw [C27_chunks g hg hprops hd i objs hfit spec f false (by
    intro j hj
    rw [hax] at hj
    simp only [Except.ok.injEq] at hj
    subst hj
    exact ⟨hrow, hlen⟩)]
  by_cases hn : objs = []
  · subst hn
    refine ⟨g, a, ?_, ha, rfl, rfl, rfl, ?_⟩
    · unfold specCall Grid.addFromSpecFunc
      rw [ha]
      simp only [List.map_nil]
      rw [if_neg h1, hax]
      simp
    · intro c m p _
      simp [cellSum]
  · have hfit3 : ¬ ∃ r ∈ objs.map (·.1), r.length ≠ g.dim - 1 := by
      rintro ⟨r, hr, hl⟩
      simp only [List.mem_map] at hr
      obtain ⟨o, ho, rfl⟩ := hr
      exact hl (hfit o ho)
    have hz : (objs.map (·.1)).zip (objs.map (·.2)) = objs := by
      rw [List.zip_map']; simp
    have hpos := List.length_pos_iff.2 hn
    refine ⟨{ g with
        grid := some (specAdd a (located g i (fun x => contribution false (f x)) objs) i ps),
        nObj := g.nObj + (located g i (fun x => contribution false (f x)) objs).length },
      specAdd a (located g i (fun x => contribution false (f x)) objs) i ps, ?_, rfl,
      specAdd_shape _ _ _ _, ?_, ?_, ?_⟩
    · unfold specCall Grid.addFromSpecFunc
      simp only [ha, hax]
      rw [if_neg h1, if_neg (by simpa using hn), if_neg hfit3, if_neg (by simp), hz]
      simp only [Bool.false_eq_true, if_false, List.length_map]
      rw [specLoop_old spec _ f hrow false false i _ (by simpa [contribution] using hlen) (some ps)
        ps _ g a ha hr hd hi rfl (chunks_ne _ hpos objs)
        (by rw [chunks_flatten _ hpos]; exact hfit) (checkProps_ok g ps hps),
        chunks_flatten _ hpos]
    · rw [← located_count g hg i (fun x => contribution false (f x)) objs]
    · rfl
    · intro c m p hc
      exact specAdd_cell g hg i hi _ objs ps hnd c hc m p a

/-- Where the all-modes statement stops: an empty, one-dimensional list of positions with
`new_prop` fails, although `add_from_pos_plus_array` handles it. -/
theorem C27_empty_new_prop_fails {A : Type} (g : Grid K V) (a : Arr V) (ha : g.grid = some a)
    (hr : ∀ f ∈ g.fourier, f = false) (i : ℕ) (hi : i < g.dim)
    (spec : List K → List A → Except Err (List (List V))) (cumulative loop careful : Bool)
    (ps : Option (List ℕ)) :
    g.addFromSpecFunc { flat := true, rows := [] } [] spec i cumulative loop careful true ps =
      (g, .error .attributeError) := by
  have h1 : ¬ g.fourier.any id = true := by
    rw [List.any_eq_true]
    rintro ⟨f, hf, hf'⟩
    rw [hr f hf] at hf'
    cases hf'
  have hax : axisOf g.dim (i : ℤ) = .ok i := by
    unfold axisOf
    have : ¬ ((i : ℤ) < 0) := by omega
    simp only [this, if_false, false_or]
    rw [if_neg (by simpa using hi)]
    simp
  unfold Grid.addFromSpecFunc
  simp only [ha, hax]
  rw [if_neg h1]
  simp

/-- In all other cases no objects change nothing, and it is no error. -/
theorem C27_empty {A : Type} (g : Grid K V) (a : Arr V) (ha : g.grid = some a)
    (hr : ∀ f ∈ g.fourier, f = false) (ax : ℤ) (i : ℕ) (hi : axisOf g.dim ax = .ok i)
    (spec : List K → List A → Except Err (List (List V))) (cumulative loop careful : Bool)
    (ps : Option (List ℕ)) (pos : Pos K) (args : List A) (hp : pos.rows = []) (nw : Bool)
    (hno : pos.flat = false ∨ nw = false) :
    g.addFromSpecFunc pos args spec ax cumulative loop careful nw ps = (g, .ok ()) := by
  have h1 : ¬ g.fourier.any id = true := by
    rw [List.any_eq_true]
    rintro ⟨f, hf, hf'⟩
    rw [hr f hf] at hf'
    cases hf'
  unfold Grid.addFromSpecFunc
  simp only [ha, hi]
  rw [if_neg h1, if_pos hp, if_neg]
  rcases hno with h | h <;> simp [h]

/-- A case of the hypotheses: a 10×10 grid, 13 objects, so chunks of ten and three. -/
example : okAnd (Grid.new 1 ⟨false, [5, 5]⟩ ⟨false, [10, 10]⟩ ⟨false, [1, 1]⟩)
    (fun g : Grid ℚ ℚ =>
      let objs := (List.range 13).map (fun j : ℕ => ([(j : ℚ) / 2], (j : ℚ)))
      let spec := fun (ax : List ℚ) (args : List ℚ) =>
        (Except.ok (args.map (fun x => ax.map (fun y => x * y))) : Except Err (List (List ℚ)))
      let r1 := (specCall g.init objs spec (-1) false false true true none).1
      let r2 := (specCall g.init objs spec (-1) false true false true none).1
      r1.nObj = 13 ∧ r2.nObj = 13 ∧ r1.nProps = 2 ∧
      r1.grid.map (fun b : Arr ℚ => cell b [1, 3] 1) = some (35 / 2) ∧
      r2.grid.map (fun b : Arr ℚ => cell b [1, 3] 1) = some (35 / 2)) = true := by
  decide +kernel

end

end Verif.Map
