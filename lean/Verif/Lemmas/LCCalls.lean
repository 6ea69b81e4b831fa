import Verif.Spec.LCCalls
import Verif.Props.LCEvo
import Verif.Props.LCIter
import Verif.Props.LCMap

set_option linter.unusedSectionVars false

/-!
# Loops over sets of lightcones
-/

namespace Verif.LCI

open Verif.Handler (Name V Err State Arg Op run step)
open Verif.LCH (Attrs iterInit EvoArgs evalStatEvo evoLoop setKws)
open Verif.LCI.Spec

variable {K : Type} [Field K] [LinearOrder K] [IsStrictOrderedRing K] {α σ β : Type}

/-- A loop that completes. -/
theorem each_ok (m : ℕ → State K → σ → (State K × σ) × Except Err β) (hs hs' : PyDict ℕ (State K))
    (o o' : σ) (rs : PyDict ℕ β) (h : each m hs o = ((hs', o'), .ok rs)) :
    hs'.keys = hs.keys ∧ rs.keys = hs.keys := by
  induction hs generalizing hs' o rs with
  | nil =>
    simp only [each, Prod.mk.injEq, Except.ok.injEq] at h
    obtain ⟨⟨rfl, -⟩, rfl⟩ := h
    exact ⟨rfl, rfl⟩
  | cons q rest ih =>
    obtain ⟨k, s⟩ := q
    unfold each at h
    rcases hm : m k s o with ⟨⟨s', o1⟩, e | r⟩
    · rw [hm] at h; simp at h
    rw [hm] at h
    simp only at h
    rcases hr : each m rest o1 with ⟨⟨rest', o2⟩, e | rs1⟩
    · rw [hr] at h; simp at h
    rw [hr] at h
    simp only [Prod.mk.injEq, Except.ok.injEq] at h
    obtain ⟨⟨rfl, rfl⟩, rfl⟩ := h
    obtain ⟨h1, h2⟩ := ih _ _ _ hr
    simp only [PyDict.keys, List.map_cons] at h1 h2 ⊢
    exact ⟨by rw [h1], by rw [h2]⟩

theorem callAll_nil (m : Method K α) : callAll m ([] : PyDict ℕ (State K)) = ([], .ok []) := rfl

theorem callAll_cons (m : Method K α) (k : ℕ) (s : State K) (rest : PyDict ℕ (State K)) :
    callAll m ((k, s) :: rest) =
      match (callOne s m).2 with
      | .error e => ((k, (callOne s m).1) :: rest, .error e)
      | .ok r => ((k, (callOne s m).1) :: (callAll m rest).1,
          match (callAll m rest).2 with
          | .error e => .error e
          | .ok rs => .ok ((k, r) :: rs)) := by
  unfold callAll
  rw [each]
  rcases hr : (callOne s m).2 with e | r
  · rfl
  · simp only
    rcases each (fun _ s (_ : Unit) => (((callOne s m).1, ()), (callOne s m).2)) rest () with
      ⟨⟨rest', u⟩, e | rs⟩ <;> rfl

theorem callOne_fst (s : State K) (m : Method K α) :
    (callOne s m).1 = match op m with | some o => step s o | none => s := by
  cases m with
  | ret => rfl
  | make m o =>
    simp only [callOne, op, step]
    rcases Handler.make s m o with ⟨s', e | u⟩ <;> rfl
  | write ps ov =>
    simp only [callOne, op, step]
    rcases Handler.write s ps ov with ⟨s', e | u⟩ <;> rfl
  | delete ps =>
    simp only [callOne, op, step]
    rcases Handler.delete s ps with ⟨s', e | u⟩ <;> rfl
  | range p lo hi reset inH =>
    simp only [callOne, op, step]
    rcases Handler.setRange s p lo hi reset inH with ⟨s', e | u⟩ <;> rfl
  | setInH b => rfl
  | stat => rfl

theorem callOne_run (s : State K) (m : Method K α) :
    (callOne s m).1 = run s ([m].filterMap op) := by
  rw [callOne_fst]
  cases h : op m <;> simp [h, run]

theorem get?_cons' (k k' : ℕ) (v : β) (rest : PyDict ℕ β) :
    PyDict.get? ((k', v) :: rest) k = if k' = k then some v else PyDict.get? rest k := rfl

theorem mem_get? (hs : PyDict ℕ β) (hn : hs.keys.Nodup) (k : ℕ) (s : β) (h : (k, s) ∈ hs) :
    hs.get? k = some s := by
  induction hs with
  | nil => cases h
  | cons q rest ih =>
    obtain ⟨k', s'⟩ := q
    simp only [PyDict.keys, List.map_cons, List.nodup_cons] at hn
    rcases List.mem_cons.1 h with e | h
    · cases e
      simp [get?_cons']
    · rw [get?_cons', if_neg]
      · exact ih hn.2 h
      · rintro rfl
        exact hn.1 (List.mem_map.2 ⟨_, h, rfl⟩)

theorem callAll_keys (m : Method K α) (hs : PyDict ℕ (State K)) :
    (callAll m hs).1.keys = hs.keys := by
  induction hs with
  | nil => rfl
  | cons q rest ih =>
    obtain ⟨k, s⟩ := q
    rw [callAll_cons]
    rcases (callOne s m).2 with e | r
    · rfl
    · simp only [PyDict.keys, List.map_cons] at ih ⊢
      rw [ih]

/-- Each handler makes the call or not. -/
theorem callAll_get (m : Method K α) (hs : PyDict ℕ (State K)) (k : ℕ) (s : State K)
    (h : hs.get? k = some s) :
    (callAll m hs).1.get? k = some s ∨ (callAll m hs).1.get? k = some (callOne s m).1 := by
  induction hs with
  | nil => cases h
  | cons q rest ih =>
    obtain ⟨k', s'⟩ := q
    rw [callAll_cons]
    rw [get?_cons'] at h
    by_cases hk : k' = k
    · rw [if_pos hk] at h
      cases h
      right
      rcases (callOne s m).2 with e | r <;> simp [get?_cons', hk]
    · rw [if_neg hk] at h
      rcases (callOne s' m).2 with e | r
      · simp only [get?_cons', if_neg hk]
        exact Or.inl h
      · simp only [get?_cons', if_neg hk]
        exact ih h

theorem callAll_get_ok (m : Method K α) (hs : PyDict ℕ (State K)) (rs : PyDict ℕ (Res K α))
    (hok : (callAll m hs).2 = .ok rs) (k : ℕ) (s : State K) (h : hs.get? k = some s) :
    (callAll m hs).1.get? k = some (callOne s m).1 ∧
      ∃ r, rs.get? k = some r ∧ (callOne s m).2 = .ok r := by
  induction hs generalizing rs with
  | nil => cases h
  | cons q rest ih =>
    obtain ⟨k', s'⟩ := q
    rw [callAll_cons] at hok ⊢
    rw [get?_cons'] at h
    rcases hc : (callOne s' m).2 with e | r
    · rw [hc] at hok; cases hok
    rw [hc] at hok
    simp only at hok ⊢
    rcases hr : (callAll m rest).2 with e | rs1
    · rw [hr] at hok; cases hok
    rw [hr] at hok
    simp only [Except.ok.injEq] at hok
    subst hok
    by_cases hk : k' = k
    · rw [if_pos hk] at h
      cases h
      simp [get?_cons', hk, hc]
    · rw [if_neg hk] at h
      simp only [get?_cons', if_neg hk]
      exact ih rs1 hr h

theorem callAll_completes (m : Method K α) (hs : PyDict ℕ (State K))
    (h : ∀ q ∈ hs, ∃ r, (callOne q.2 m).2 = .ok r) : ∃ rs, (callAll m hs).2 = .ok rs := by
  induction hs with
  | nil => exact ⟨_, rfl⟩
  | cons q rest ih =>
    obtain ⟨k, s⟩ := q
    obtain ⟨r, hr⟩ := h (k, s) List.mem_cons_self
    obtain ⟨rs, hrs⟩ := ih (fun q hq => h q (List.mem_cons_of_mem _ hq))
    refine ⟨(k, r) :: rs, ?_⟩
    rw [callAll_cons]
    simp only at hr
    simp only [hr, hrs]

theorem callAll_rs_keys (m : Method K α) (hs : PyDict ℕ (State K)) (rs : PyDict ℕ (Res K α))
    (hok : (callAll m hs).2 = .ok rs) : rs.keys = hs.keys := by
  unfold callAll at hok
  rcases he : each (fun _ s (_ : Unit) => (((callOne s m).1, ()), (callOne s m).2)) hs () with
    ⟨⟨hs', u⟩, r⟩
  rw [he] at hok
  simp only at hok
  subst hok
  exact (each_ok _ _ _ _ _ _ he).2

/-! ## Opening -/

theorem openHandlers_ok (open1 : ℕ → Except Err (State K)) (l : List ℕ) (acc : PyDict ℕ (State K))
    (h : ∀ i ∈ l, ∃ s, open1 i = .ok s) :
    ∃ hs, openHandlers open1 l acc = .ok hs ∧
      (∀ i ∈ l, ∃ s, open1 i = .ok s ∧ hs.get? i = some s) ∧
      ∀ i, i ∉ l → hs.get? i = acc.get? i := by
  induction l generalizing acc with
  | nil => exact ⟨acc, rfl, by simp, fun _ _ => rfl⟩
  | cons i is ih =>
    obtain ⟨s, hs⟩ := h i List.mem_cons_self
    obtain ⟨hd, h1, h2, h3⟩ := ih (acc.set i s) (fun j hj => h j (List.mem_cons_of_mem _ hj))
    refine ⟨hd, ?_, ?_, ?_⟩
    · unfold openHandlers
      rw [hs]
      exact h1
    · intro j hj
      by_cases hm : j ∈ is
      · exact h2 j hm
      · have : j = i := by
          rcases List.mem_cons.1 hj with h | h
          · exact h
          · exact absurd h hm
        subst this
        exact ⟨s, hs, by rw [h3 j hm]; simp⟩
    · intro j hj
      simp only [List.mem_cons, not_or] at hj
      rw [h3 j hj.2, PyDict.get?_set, if_neg (fun e => hj.1 e.symm)]

theorem keys_set (d : PyDict ℕ β) (k : ℕ) (v : β) :
    (d.set k v).keys = if k ∈ d.keys then d.keys else d.keys ++ [k] := by
  induction d with
  | nil => simp [PyDict.set, PyDict.keys]
  | cons q rest ih =>
    obtain ⟨k', v'⟩ := q
    unfold PyDict.set
    by_cases h : k' = k
    · subst h
      simp [PyDict.keys]
    · have h' : ¬ k = k' := fun e => h e.symm
      rw [if_neg h]
      have e1 : ∀ (w : β) (r : PyDict ℕ β), PyDict.keys ((k', w) :: r) = k' :: r.keys := fun _ _ => rfl
      rw [e1, e1, ih]
      by_cases hk : k ∈ PyDict.keys rest
      · rw [if_pos hk, if_pos (List.mem_cons_of_mem _ hk)]
      · rw [if_neg hk, if_neg, List.cons_append]
        intro hm
        rcases List.mem_cons.1 hm with e | e
        · exact h' e
        · exact hk e

/-- The keys are the numbers in the order of their first occurrence. -/
theorem openHandlers_keys (open1 : ℕ → Except Err (State K)) (l : List ℕ)
    (acc hs : PyDict ℕ (State K)) (h : openHandlers open1 l acc = .ok hs) :
    hs.keys = l.foldl (fun ks k => if k ∈ ks then ks else ks ++ [k]) acc.keys := by
  induction l generalizing acc with
  | nil =>
    simp only [openHandlers, Except.ok.injEq] at h
    subst h
    rfl
  | cons i is ih =>
    unfold openHandlers at h
    rcases ho : open1 i with e | s
    · rw [ho] at h; cases h
    rw [ho] at h
    simp only at h
    rw [ih _ h, List.foldl_cons, keys_set]

theorem foldl_keys_nodup (l ks : List ℕ) (h : (ks ++ l).Nodup) :
    l.foldl (fun ks k => if k ∈ ks then ks else ks ++ [k]) ks = ks ++ l := by
  induction l generalizing ks with
  | nil => simp
  | cons k l ih =>
    have hk : k ∉ ks := by
      intro hm
      rw [List.nodup_append] at h
      exact h.2.2 k hm k List.mem_cons_self rfl
    rw [List.foldl_cons, if_neg hk, ih]
    · simp
    · simpa using h

theorem foldl_keys (l ks : List ℕ) (hks : ks.Nodup) :
    (l.foldl (fun ks k => if k ∈ ks then ks else ks ++ [k]) ks).Nodup ∧
    ∀ k, k ∈ l.foldl (fun ks k => if k ∈ ks then ks else ks ++ [k]) ks ↔ k ∈ ks ∨ k ∈ l := by
  induction l generalizing ks with
  | nil => simp [hks]
  | cons i l ih =>
    rw [List.foldl_cons]
    by_cases hi : i ∈ ks
    · rw [if_pos hi]
      obtain ⟨h1, h2⟩ := ih ks hks
      refine ⟨h1, ?_⟩
      intro k
      rw [h2, List.mem_cons]
      constructor
      · rintro (h | h)
        · exact Or.inl h
        · exact Or.inr (Or.inr h)
      · rintro (h | h | h)
        · exact Or.inl h
        · subst h; exact Or.inl hi
        · exact Or.inr h
    · rw [if_neg hi]
      obtain ⟨h1, h2⟩ := ih (ks ++ [i]) (by
        rw [List.nodup_append]
        refine ⟨hks, by simp, ?_⟩
        intro a ha b hb
        simp only [List.mem_cons, List.not_mem_nil, or_false] at hb
        subst hb
        rintro rfl
        exact hi ha)
      refine ⟨h1, ?_⟩
      intro k
      rw [h2]
      simp only [List.mem_append, List.mem_cons, List.not_mem_nil, or_false]
      tauto

/-! ## Keywords -/

theorem setKws_same (a : EvoArgs K) (vol : K → K → Except Err K) (lo hi : K)
    (o o' : PyDict Name (Arg K)) (h : SameKws a o o') :
    (setKws a vol lo hi o).2 = (setKws a vol lo hi o').2 ∧
    ((setKws a vol lo hi o).2 = .ok () →
      ∀ k, (setKws a vol lo hi o).1.get? k = (setKws a vol lo hi o').1.get? k) := by
  have h2 : (setKws a vol lo hi o).2 = (setKws a vol lo hi o').2 := by
    unfold setKws
    simp only
    split
    · rcases vol lo hi with e | v <;> rfl
    · rfl
  refine ⟨h2, ?_⟩
  intro hok k
  rcases h1 : setKws a vol lo hi o with ⟨p, r⟩
  rcases h3 : setKws a vol lo hi o' with ⟨p', r'⟩
  rw [h1] at hok h2
  rw [h3] at h2
  simp only at hok h2
  subst hok
  subst h2
  obtain ⟨a1, a2, a3, a4⟩ := LCH.setKws_ok a vol lo hi o p h1
  obtain ⟨b1, b2, b3, b4⟩ := LCH.setKws_ok a vol lo hi o' p' h3
  simp only
  by_cases k1 : k = "zmin"
  · subst k1
    rw [a2, b2]
    rcases h "zmin" with h | h | h | h
    · rw [h]
    · rw [h.2]; rfl
    · exact absurd h.1 (by decide)
    · exact absurd h.1 (by decide)
  by_cases k2 : k = "zmax"
  · subst k2
    rw [a3, b3]
    rcases h "zmax" with h | h | h | h
    · rw [h]
    · exact absurd h.1 (by decide)
    · rw [h.2]; rfl
    · exact absurd h.1 (by decide)
  by_cases k3 : k = "volume"
  · subst k3
    cases hv : a.volumeKw with
    | true =>
      rw [hv] at a4 b4
      simp only [if_true] at a4 b4
      obtain ⟨v, w1, w2⟩ := a4
      obtain ⟨v', w3, w4⟩ := b4
      rw [w1] at w3
      cases w3
      rw [w2, w4]
    | false =>
      rw [hv] at a4 b4
      simp only [Bool.false_eq_true, if_false] at a4 b4
      rw [a4, b4]
      rcases h "volume" with h | h | h | h
      · exact h
      · exact absurd h.1 (by decide)
      · exact absurd h.1 (by decide)
      · rw [hv] at h; exact absurd h.2 (by decide)
  · rw [a1 k k1 k2 k3, b1 k k1 k2 k3]
    rcases h k with h | h | h | h
    · exact h
    · exact absurd h.1 k1
    · exact absurd h.1 k2
    · exact absurd h.1 k3

/-- Equal dictionaries up to the order. -/
theorem statArgs_congr (s : State K) (remap : PyDict Name Name) (useAll giveH : Bool) (kws : List Name)
    (o o' : PyDict Name (Arg K)) (h : ∀ k, o.get? k = o'.get? k) :
    (∃ e, Handler.statArgs s remap useAll giveH o kws = .error e ∧
      Handler.statArgs s remap useAll giveH o' kws = .error e) ∨
    ∃ p p', Handler.statArgs s remap useAll giveH o kws = .ok p ∧
      Handler.statArgs s remap useAll giveH o' kws = .ok p' ∧ ∀ k, p.get? k = p'.get? k := by
  induction kws generalizing o o' with
  | nil => exact Or.inr ⟨o, o', rfl, rfl, h⟩
  | cons kw kws ih =>
    unfold Handler.statArgs
    have hset : ∀ v k, (o.set kw v).get? k = (o'.set kw v).get? k := by
      intro v k
      rw [PyDict.get?_set, PyDict.get?_set, h k]
    simp only
    split
    · rcases Handler.returnProperty s ((remap.get? kw).getD kw) useAll (some giveH) with e | (_ | vs)
      · exact Or.inl ⟨e, rfl, rfl⟩
      · exact ih _ _ (hset _)
      · exact ih _ _ (hset _)
    · rcases s.extra.get? ((remap.get? kw).getD kw) with _ | x
      · exact Or.inl ⟨_, rfl, rfl⟩
      · exact ih _ _ (hset _)

theorem evalStat_congr (s : State K) (f : PyDict Name (Arg K) → Except Err α) (hf : Keyworded f)
    (kwargs : List Name) (remap : PyDict Name Name) (useAll : Bool) (giveH : Option Bool)
    (o o' : PyDict Name (Arg K)) (h : ∀ k, o.get? k = o'.get? k) :
    Handler.evalStat s f kwargs remap o useAll giveH = Handler.evalStat s f kwargs remap o' useAll giveH := by
  unfold Handler.evalStat
  rcases statArgs_congr s remap useAll (giveH.getD s.inH) kwargs o o' h with ⟨e, h1, h2⟩ | ⟨p, p', h1, h2, h3⟩
  · rw [h1, h2]
  · rw [h1, h2]
    exact hf p p' h3

theorem sameKws_refl (a : EvoArgs K) (o : PyDict Name (Arg K)) : SameKws a o o := fun _ => Or.inl rfl

/-- The loop over the bins depends only on the keywords that are not set in each bin. -/
theorem evoLoop_same (f : PyDict Name (Arg K) → Except Err α) (hf : Keyworded f) (a : EvoArgs K)
    (giveH : Bool) (vol : K → K → Except Err K) (bs : List (K × K)) (s : State K)
    (o o' : PyDict Name (Arg K)) (h : SameKws a o o') :
    (evoLoop f a giveH vol bs s o).2 = (evoLoop f a giveH vol bs s o').2 ∧
    (evoLoop f a giveH vol bs s o).1.1 = (evoLoop f a giveH vol bs s o').1.1 := by
  induction bs generalizing s o o' with
  | nil => exact ⟨rfl, rfl⟩
  | cons b rest ih =>
    obtain ⟨lo, hi⟩ := b
    unfold evoLoop
    rcases Handler.setRange s (some "redshift") (some lo) (some hi) true none with ⟨s1, e | u⟩
    · exact ⟨rfl, rfl⟩
    simp only
    obtain ⟨k1, k2⟩ := setKws_same a vol lo hi o o' h
    rcases h1 : setKws a vol lo hi o with ⟨p, e | u⟩
    · rw [h1] at k1
      rcases h2 : setKws a vol lo hi o' with ⟨p', e' | u'⟩
      · rw [h2] at k1
        simp only [Except.error.injEq] at k1
        subst k1
        exact ⟨rfl, rfl⟩
      · rw [h2] at k1; cases k1
    rcases h2 : setKws a vol lo hi o' with ⟨p', e' | u'⟩
    · rw [h1, h2] at k1; cases k1
    rw [h1, h2] at k2
    have k3 := k2 rfl
    simp only at k3 ⊢
    rw [evalStat_congr s1 f hf a.kwargs a.remap false (some giveH) p p' k3]
    rcases Handler.evalStat s1 f a.kwargs a.remap p' false (some giveH) with e | v
    · exact ⟨rfl, rfl⟩
    simp only
    have hsame : SameKws a ((p.erase "zmin").erase "zmax") ((p'.erase "zmin").erase "zmax") := by
      intro k
      left
      rw [PyDict.get?_erase, PyDict.get?_erase, PyDict.get?_erase, PyDict.get?_erase, k3 k]
    obtain ⟨i1, i2⟩ := ih s1 _ _ hsame
    rcases hr : evoLoop f a giveH vol rest s1 ((p.erase "zmin").erase "zmax") with ⟨r, e | vs⟩ <;>
    rcases hr' : evoLoop f a giveH vol rest s1 ((p'.erase "zmin").erase "zmax") with ⟨r', e' | vs'⟩ <;>
    rw [hr, hr'] at i1 i2 <;> simp only at i1 i2
    · cases i1; exact ⟨rfl, i2⟩
    · cases i1
    · cases i1
    · cases i1; exact ⟨rfl, i2⟩

/-- `eval_stat_evo` depends only on the keywords that are not set in each bin. -/
theorem evo_same (f : PyDict Name (Arg K) → Except Err α) (hf : Keyworded f) (a : EvoArgs K)
    (vol : Bool → K → K → Except Err K) (bins : List K) (s : State K)
    (o o' : PyDict Name (Arg K)) (h : SameKws a o o') :
    (evalStatEvo s bins f a vol o).2 = (evalStatEvo s bins f a vol o').2 ∧
    (evalStatEvo s bins f a vol o).1.1 = (evalStatEvo s bins f a vol o').1.1 := by
  unfold evalStatEvo
  simp only
  obtain ⟨h1, h2⟩ := evoLoop_same f hf a (a.giveH.getD s.inH) (vol (a.giveH.getD s.inH))
    ((bins.insertionSort (· ≤ ·)).zip (bins.insertionSort (· ≤ ·)).tail) s o o' h
  rcases hr : evoLoop f a (a.giveH.getD s.inH) (vol (a.giveH.getD s.inH))
    ((bins.insertionSort (· ≤ ·)).zip (bins.insertionSort (· ≤ ·)).tail) s o with ⟨⟨s1, o1⟩, e | vs⟩ <;>
  rcases hr' : evoLoop f a (a.giveH.getD s.inH) (vol (a.giveH.getD s.inH))
    ((bins.insertionSort (· ≤ ·)).zip (bins.insertionSort (· ≤ ·)).tail) s o' with ⟨⟨s1', o1'⟩, e' | vs'⟩ <;>
  rw [hr, hr'] at h1 h2 <;> simp only at h1 h2
  · cases h1; exact ⟨rfl, h2⟩
  · cases h1
  · cases h1
  · cases h1; subst h2; exact ⟨rfl, rfl⟩

end Verif.LCI
