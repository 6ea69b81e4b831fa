import Mathlib.Data.List.Sort
import Mathlib.Algebra.Order.Ring.Rat
import Mathlib.Tactic.NormNum
import Verif.Props.HandlerRead
import Verif.Spec.LCHandler

/-!
# C38, C73: statistics in redshift bins
-/

set_option linter.unusedSectionVars false

namespace Verif.LCH

open Spec
open Verif.Handler (Name V Err State Arg)
open Verif.Handler.Spec (Reachable)

variable {K : Type} [Field K] [LinearOrder K] [IsStrictOrderedRing K] {α : Type}

/-- The keywords of the statistic in a bin: those of the caller, plus the edges and the volume of
the bin where asked for.  `first` says whether this is the first bin. -/
def BinKws (a : EvoArgs K) (vol : K → K → Except Err K) (other : PyDict Name (Arg K)) (first : Bool)
    (lo hi : K) (o : PyDict Name (Arg K)) : Prop :=
  (∀ k, k ≠ "zmin" → k ≠ "zmax" → k ≠ "volume" → o.get? k = other.get? k) ∧
  (o.get? "zmin" = if a.zminKw then some (.scalar lo) else if first then other.get? "zmin" else none) ∧
  (o.get? "zmax" = if a.zmaxKw then some (.scalar hi) else if first then other.get? "zmax" else none) ∧
  (if a.volumeKw then ∃ v, vol lo hi = .ok v ∧ o.get? "volume" = some (.scalar v)
    else o.get? "volume" = other.get? "volume")

theorem setKws_ok (a : EvoArgs K) (vol : K → K → Except Err K) (lo hi : K)
    (o o1 : PyDict Name (Arg K)) (h : setKws a vol lo hi o = (o1, .ok ())) :
    (∀ k, k ≠ "zmin" → k ≠ "zmax" → k ≠ "volume" → o1.get? k = o.get? k) ∧
    (o1.get? "zmin" = if a.zminKw then some (.scalar lo) else o.get? "zmin") ∧
    (o1.get? "zmax" = if a.zmaxKw then some (.scalar hi) else o.get? "zmax") ∧
    (if a.volumeKw then ∃ v, vol lo hi = .ok v ∧ o1.get? "volume" = some (.scalar v)
      else o1.get? "volume" = o.get? "volume") := by
  unfold setKws at h
  simp only at h
  rcases hv : vol lo hi with e | v <;> rw [hv] at h <;>
    cases h1 : a.zminKw <;> cases h2 : a.zmaxKw <;> cases h3 : a.volumeKw <;>
      simp only [h1, h2, h3, Bool.false_eq_true, if_false, if_true, Prod.mk.injEq, reduceCtorEq,
        and_false, and_true] at h <;> subst h <;>
      refine ⟨fun k hk1 hk2 hk3 => ?_, ?_, ?_, ?_⟩ <;>
      try have e1 : ¬ "zmin" = k := fun e => hk1 e.symm
  all_goals try have e2 : ¬ "zmax" = k := fun e => hk2 e.symm
  all_goals try have e3 : ¬ "volume" = k := fun e => hk3 e.symm
  all_goals simp [PyDict.get?_set, *]

/-- The selection of one bin. -/
theorem setRange_bin (s t : State K) (act : List ℕ) (n : ℕ)
    (ht : t = { s with active := act, nActive := n }) (zs : List (V K))
    (hz : Handler.returnProperty s "redshift" true (some s.inH) = .ok (some zs)) (lo hi : K) :
    Handler.setRange t (some "redshift") (some lo) (some hi) true none =
      (withSelection s (Handler.nonzeroRange (some lo) (some hi) zs), .ok ()) := by
  subst ht
  have h : Handler.returnProperty { s with active := act, nActive := n } "redshift" true
      (some s.inH) = .ok (some zs) := hz
  simp only [Handler.setRange, Option.getD_none, h, if_true]
  rfl

theorem mem_bin (zs : List (V K)) (lo hi : K) (i : ℕ) :
    i ∈ Handler.nonzeroRange (some lo) (some hi) zs ↔ InBin zs lo hi i := by
  rw [Handler.mem_nonzeroRange]
  constructor
  · rintro ⟨v, h1, h2⟩
    cases v with
    | none => simp [Handler.inRange] at h2
    | some z =>
      simp only [Handler.inRange, Bool.and_eq_true, decide_eq_true_eq] at h2
      exact ⟨z, h1, h2.1, h2.2⟩
  · rintro ⟨z, h1, h2, h3⟩
    exact ⟨some z, h1, by simp [Handler.inRange, h2, h3]⟩

theorem bin_sorted (zs : List (V K)) (lo hi : K) :
    (Handler.nonzeroRange (some lo) (some hi) zs).Pairwise (· < ·) :=
  List.Pairwise.sublist List.filter_sublist List.pairwise_lt_range

/-- One step of the loop. -/
theorem evoLoop_cons (f : PyDict Name (Arg K) → Except Err α) (a : EvoArgs K) (giveH : Bool)
    (vol : K → K → Except Err K) (s t : State K) (act : List ℕ) (n : ℕ)
    (ht : t = { s with active := act, nActive := n }) (zs : List (V K))
    (hz : Handler.returnProperty s "redshift" true (some s.inH) = .ok (some zs))
    (lo hi : K) (rest : List (K × K)) (o o' : PyDict Name (Arg K)) (s' : State K) (vs : List α)
    (h : evoLoop f a giveH vol ((lo, hi) :: rest) t o = ((s', o'), .ok vs)) :
    ∃ o1 v vs1, setKws a vol lo hi o = (o1, .ok ()) ∧ vs = v :: vs1 ∧
      Handler.evalStat (withSelection s (Handler.nonzeroRange (some lo) (some hi) zs)) f a.kwargs
        a.remap o1 false (some giveH) = .ok v ∧
      evoLoop f a giveH vol rest (withSelection s (Handler.nonzeroRange (some lo) (some hi) zs))
        ((o1.erase "zmin").erase "zmax") = ((s', o'), .ok vs1) := by
  simp only [evoLoop, setRange_bin s t act n ht zs hz lo hi] at h
  rcases hk : setKws a vol lo hi o with ⟨o1, e | u⟩
  · rw [hk] at h; simp at h
  rw [hk] at h
  simp only at h
  rcases hv : Handler.evalStat (withSelection s (Handler.nonzeroRange (some lo) (some hi) zs)) f
      a.kwargs a.remap o1 false (some giveH) with e | v
  · rw [hv] at h; simp at h
  rw [hv] at h
  simp only at h
  rcases hr : evoLoop f a giveH vol rest
      (withSelection s (Handler.nonzeroRange (some lo) (some hi) zs))
      ((o1.erase "zmin").erase "zmax") with ⟨r, e | vs1⟩
  · rw [hr] at h; simp at h
  rw [hr] at h
  simp only [Prod.mk.injEq, Except.ok.injEq] at h
  refine ⟨o1, v, vs1, rfl, h.2.symm, hv, ?_⟩
  rw [hr, h.1]

/-- The loop from the second bin on: neither `zmin` nor `zmax` are left in the dictionary. -/
theorem evoLoop_rest (f : PyDict Name (Arg K) → Except Err α) (a : EvoArgs K) (giveH : Bool)
    (vol : K → K → Except Err K) (s : State K) (zs : List (V K))
    (hz : Handler.returnProperty s "redshift" true (some s.inH) = .ok (some zs))
    (other : PyDict Name (Arg K)) :
    ∀ (bins : List (K × K)) (t : State K) (act : List ℕ) (n : ℕ) (o o' : PyDict Name (Arg K))
      (s' : State K) (vs : List α),
      t = { s with active := act, nActive := n } →
      (∀ k, k ≠ "zmin" → k ≠ "zmax" → k ≠ "volume" → o.get? k = other.get? k) →
      o.get? "zmin" = none → o.get? "zmax" = none →
      (a.volumeKw = false → o.get? "volume" = other.get? "volume") →
      evoLoop f a giveH vol bins t o = ((s', o'), .ok vs) →
      List.Forall₂ (fun (p : K × K) (v : α) => ∃ o1, BinKws a vol other false p.1 p.2 o1 ∧
        Handler.evalStat (withSelection s (Handler.nonzeroRange (some p.1) (some p.2) zs)) f a.kwargs
          a.remap o1 false (some giveH) = .ok v) bins vs ∧
      (∀ p, bins.getLast? = some p →
        s' = withSelection s (Handler.nonzeroRange (some p.1) (some p.2) zs)) ∧
      (bins = [] → s' = t ∧ o' = o) ∧
      (∀ k, k ≠ "zmin" → k ≠ "zmax" → k ≠ "volume" → o'.get? k = other.get? k) ∧
      o'.get? "zmin" = none ∧ o'.get? "zmax" = none ∧
      (a.volumeKw = false → o'.get? "volume" = other.get? "volume") ∧
      (∀ p, bins.getLast? = some p → a.volumeKw = true →
        ∃ v, vol p.1 p.2 = .ok v ∧ o'.get? "volume" = some (.scalar v)) := by
  intro bins
  induction bins with
  | nil =>
    intro t act n o o' s' vs ht h1 h2 h3 h4 h
    simp only [evoLoop, Prod.mk.injEq, Except.ok.injEq] at h
    obtain ⟨⟨rfl, rfl⟩, rfl⟩ := h
    exact ⟨.nil, by simp, fun _ => ⟨rfl, rfl⟩, h1, h2, h3, h4, by simp⟩
  | cons p rest ih =>
    obtain ⟨lo, hi⟩ := p
    intro t act n o o' s' vs ht h1 h2 h3 h4 h
    obtain ⟨o1, v, vs1, hk, rfl, hv, hr⟩ := evoLoop_cons f a giveH vol s t act n ht zs hz lo hi rest
      o o' s' vs h
    obtain ⟨k1, k2, k3, k4⟩ := setKws_ok a vol lo hi o o1 hk
    have e1 : ∀ k, k ≠ "zmin" → k ≠ "zmax" → k ≠ "volume" →
        ((o1.erase "zmin").erase "zmax").get? k = other.get? k := by
      intro k a1 a2 a3
      have b1 : ¬ "zmin" = k := fun e => a1 e.symm
      have b2 : ¬ "zmax" = k := fun e => a2 e.symm
      rw [PyDict.get?_erase, if_neg b2, PyDict.get?_erase, if_neg b1, k1 k a1 a2 a3, h1 k a1 a2 a3]
    have e2 : ((o1.erase "zmin").erase "zmax").get? "zmin" = none := by simp
    have e3 : ((o1.erase "zmin").erase "zmax").get? "zmax" = none := by simp
    have ev : ((o1.erase "zmin").erase "zmax").get? "volume" = o1.get? "volume" := by simp
    have e4 : a.volumeKw = false →
        ((o1.erase "zmin").erase "zmax").get? "volume" = other.get? "volume" := by
      intro hv'
      rw [hv'] at k4
      simp only [Bool.false_eq_true, if_false] at k4
      rw [ev, k4, h4 hv']
    obtain ⟨r1, r2, r3, r4, r5, r6, r7, r8⟩ := ih _ _ _ _ _ _ _ rfl e1 e2 e3 e4 hr
    refine ⟨.cons ⟨o1, ⟨?_, ?_, ?_, ?_⟩, hv⟩ r1, ?_, by simp, r4, r5, r6, r7, ?_⟩
    · intro k a1 a2 a3; rw [k1 k a1 a2 a3, h1 k a1 a2 a3]
    · rw [k2, h2]; simp
    · rw [k3, h3]; simp
    · cases hv' : a.volumeKw
      · rw [hv'] at k4
        simp only [Bool.false_eq_true, if_false] at k4 ⊢
        rw [k4, h4 hv']
      · rw [hv'] at k4; exact k4
    · intro p hp
      cases rest with
      | nil =>
        simp only [List.getLast?_singleton, Option.some.injEq] at hp
        subst hp
        exact (r3 rfl).1
      | cons q rest =>
        rw [List.getLast?_cons_cons] at hp
        exact r2 p hp
    · intro p hp hv'
      cases rest with
      | nil =>
        simp only [List.getLast?_singleton, Option.some.injEq] at hp
        subst hp
        rw [hv'] at k4
        simp only [if_true] at k4
        obtain ⟨w, w1, w2⟩ := k4
        exact ⟨w, w1, by rw [(r3 rfl).2, ev, w2]⟩
      | cons q rest =>
        rw [List.getLast?_cons_cons] at hp
        exact r8 p hp hv'

/-- The whole call. -/
theorem evo_ok (s s' : State K) (bins : List K) (f : PyDict Name (Arg K) → Except Err α)
    (a : EvoArgs K) (vol : Bool → K → K → Except Err K) (other o' : PyDict Name (Arg K))
    (bs : List K) (vals : List α) (zs : List (V K))
    (hz : Handler.returnProperty s "redshift" true (some s.inH) = .ok (some zs))
    (h : evalStatEvo s bins f a vol other = ((s', o'), .ok (bs, vals))) :
    bs = bins.insertionSort (· ≤ ·) ∧
    (∀ (k : ℕ) (lo hi : K), bs[k]? = some lo → bs[k + 1]? = some hi → ∃ v o1, vals[k]? = some v ∧
      BinKws a (vol (a.giveH.getD s.inH)) other (decide (k = 0)) lo hi o1 ∧
      Handler.evalStat (withSelection s (Handler.nonzeroRange (some lo) (some hi) zs)) f a.kwargs
        a.remap o1 false (some (a.giveH.getD s.inH)) = .ok v) ∧
    vals.length = bs.length - 1 ∧
    (∀ p, (bs.zip bs.tail).getLast? = some p → s' = { s with
        nActive := (Handler.nonzeroRange (some p.1) (some p.2) zs).length } ∧
      (∀ k, k ≠ "zmin" → k ≠ "zmax" → k ≠ "volume" → o'.get? k = other.get? k) ∧
      o'.get? "zmin" = none ∧ o'.get? "zmax" = none ∧
      (a.volumeKw = false → o'.get? "volume" = other.get? "volume") ∧
      (a.volumeKw = true → ∃ v, vol (a.giveH.getD s.inH) p.1 p.2 = .ok v ∧
        o'.get? "volume" = some (.scalar v))) ∧
    (bs.length ≤ 1 → s' = s ∧ o' = other) := by
  unfold evalStatEvo at h
  simp only at h
  generalize hB : bins.insertionSort (· ≤ ·) = B at h ⊢
  rcases hl : evoLoop f a (a.giveH.getD s.inH) (vol (a.giveH.getD s.inH)) (B.zip B.tail) s other with
    ⟨⟨s1, o1⟩, e | vs⟩
  · rw [hl] at h; simp at h
  rw [hl] at h
  simp only [Prod.mk.injEq, Except.ok.injEq] at h
  obtain ⟨⟨hs', rfl⟩, rfl, rfl⟩ := h
  refine ⟨rfl, ?_⟩
  cases B with
  | nil =>
    simp only [List.tail_nil, List.zip_nil_left, evoLoop, Prod.mk.injEq, Except.ok.injEq] at hl
    obtain ⟨⟨rfl, rfl⟩, rfl⟩ := hl
    exact ⟨by simp, rfl, by simp, fun _ => ⟨hs'.symm, rfl⟩⟩
  | cons b0 B =>
    cases B with
    | nil =>
      simp only [List.tail_cons, List.zip_nil_right, evoLoop, Prod.mk.injEq, Except.ok.injEq] at hl
      obtain ⟨⟨rfl, rfl⟩, rfl⟩ := hl
      exact ⟨by simp, rfl, by simp, fun _ => ⟨hs'.symm, rfl⟩⟩
    | cons b1 B =>
      simp only [List.tail_cons, List.zip_cons_cons] at hl ⊢
      obtain ⟨oo, v, vs1, hk, rfl, hv, hr⟩ := evoLoop_cons f a _ _ s s s.active s.nActive rfl zs hz
        b0 b1 _ other o1 s1 vs hl
      obtain ⟨k1, k2, k3, k4⟩ := setKws_ok a _ b0 b1 other oo hk
      have e1 : ∀ k, k ≠ "zmin" → k ≠ "zmax" → k ≠ "volume" →
          ((oo.erase "zmin").erase "zmax").get? k = other.get? k := by
        intro k a1 a2 a3
        have b1 : ¬ "zmin" = k := fun e => a1 e.symm
        have b2 : ¬ "zmax" = k := fun e => a2 e.symm
        rw [PyDict.get?_erase, if_neg b2, PyDict.get?_erase, if_neg b1, k1 k a1 a2 a3]
      have ev : ((oo.erase "zmin").erase "zmax").get? "volume" = oo.get? "volume" := by simp
      have e4 : a.volumeKw = false →
          ((oo.erase "zmin").erase "zmax").get? "volume" = other.get? "volume" := by
        intro hv'
        rw [hv'] at k4
        simp only [Bool.false_eq_true, if_false] at k4
        rw [ev, k4]
      obtain ⟨r1, r2, r3, r4, r5, r6, r7, r8⟩ := evoLoop_rest f a _ _ s zs hz other
        ((b1 :: B).zip B) _ _ _ _ _ _ _ rfl e1 (by simp) (by simp) e4 hr
      have hhead : BinKws a (vol (a.giveH.getD s.inH)) other true b0 b1 oo :=
        ⟨k1, by simpa using k2, by simpa using k3, k4⟩
      refine ⟨?_, ?_, ?_, by simp⟩
      · intro k lo hi h1 h2
        cases k with
        | zero =>
          simp only [List.getElem?_cons_zero, Option.some.injEq, zero_add,
            List.getElem?_cons_succ] at h1 h2
          subst h1 h2
          exact ⟨v, oo, rfl, hhead, hv⟩
        | succ k =>
          rw [List.getElem?_cons_succ] at h1 h2
          have hz' : ((b1 :: B).zip B)[k]? = some (lo, hi) := by
            rw [List.getElem?_zip_eq_some]
            exact ⟨h1, by rw [List.getElem?_cons_succ] at h2; exact h2⟩
          obtain ⟨hlen, hg⟩ := List.forall₂_iff_get.1 r1
          obtain ⟨hk1, hk2⟩ := List.getElem?_eq_some_iff.1 hz'
          have := hg k hk1 (by omega)
          rw [List.get_eq_getElem, hk2] at this
          obtain ⟨oo', q1, q2⟩ := this
          refine ⟨vs1[k]'(by omega), oo', ?_, ?_, ?_⟩
          · rw [List.getElem?_cons_succ, List.getElem?_eq_getElem]
          · simpa using q1
          · exact q2
      · have := r1.length_eq
        simp only [List.length_zip, List.length_cons] at this ⊢
        omega
      · intro p hp
        cases B with
        | nil =>
          simp only [List.zip_nil_right, List.getLast?_singleton, Option.some.injEq] at hp
          subst hp
          obtain ⟨q1, q2⟩ := r3 rfl
          refine ⟨?_, r4, r5, r6, r7, ?_⟩
          · rw [← hs', q1]
          · intro hv'
            rw [hv'] at k4
            simp only [if_true] at k4
            obtain ⟨w, w1, w2⟩ := k4
            exact ⟨w, w1, by rw [q2, ev, w2]⟩
        | cons b2 B =>
          rw [List.zip_cons_cons, List.getLast?_cons_cons] at hp
          rw [List.zip_cons_cons] at r2 r8
          refine ⟨?_, r4, r5, r6, r7, r8 p hp⟩
          rw [← hs', r2 p hp]; rfl

/-! ## C38 -/

/-- C38: the statistic of a bin is evaluated for exactly the objects (of all in the catalogue) with
redshift between the edges of the bin, each once, in catalogue order; one value per bin; the bins
are the sorted edges. -/
theorem C38_values_partial (s s' : State K) (bins : List K) (f : PyDict Name (Arg K) → Except Err α)
    (a : EvoArgs K) (vol : Bool → K → K → Except Err K) (other o' : PyDict Name (Arg K))
    (bs : List K) (vals : List α) (zs : List (V K))
    (hz : Handler.returnProperty s "redshift" true (some s.inH) = .ok (some zs))
    (h : evalStatEvo s bins f a vol other = ((s', o'), .ok (bs, vals))) :
    bs.Pairwise (· ≤ ·) ∧ bs.Perm bins ∧ vals.length = bs.length - 1 ∧
    ∀ (k : ℕ) (lo hi : K), bs[k]? = some lo → bs[k + 1]? = some hi → ∃ v sel o1,
      vals[k]? = some v ∧ sel.Pairwise (· < ·) ∧ (∀ i, i ∈ sel ↔ InBin zs lo hi i) ∧
      Handler.evalStat (withSelection s sel) f a.kwargs a.remap o1 false
        (some (a.giveH.getD s.inH)) = .ok v := by
  obtain ⟨h1, h2, h3, -⟩ := evo_ok s s' bins f a vol other o' bs vals zs hz h
  refine ⟨?_, ?_, h3, ?_⟩
  · rw [h1]; exact List.pairwise_insertionSort _ _
  · rw [h1]; exact List.perm_insertionSort _ _
  · intro k lo hi g1 g2
    obtain ⟨v, o1, q1, -, q2⟩ := h2 k lo hi g1 g2
    exact ⟨v, _, o1, q1, bin_sorted zs lo hi, mem_bin zs lo hi, q2⟩

/-- C38: no object is in two bins unless its redshift is an edge; every object with a redshift between
the first and the last edge is in some bin. -/
theorem C38_once_partial (bs : List K) (hs : bs.Pairwise (· ≤ ·)) (zs : List (V K)) (i : ℕ) (z : K)
    (hi : zs[i]? = some (some z)) :
    (z ∉ bs → ∀ (k k' : ℕ) (lo hi lo' hi' : K), bs[k]? = some lo → bs[k + 1]? = some hi →
      bs[k']? = some lo' → bs[k' + 1]? = some hi' → InBin zs lo hi i → InBin zs lo' hi' i → k = k') ∧
    (∀ first last, bs[0]? = some first → bs.getLast? = some last → 2 ≤ bs.length → first ≤ z →
      z ≤ last → ∃ (k : ℕ) (lo hi : K), bs[k]? = some lo ∧ bs[k + 1]? = some hi ∧ InBin zs lo hi i) := by
  have hmono : ∀ (j j' : ℕ) (x y : K), bs[j]? = some x → bs[j']? = some y → j < j' → x ≤ y := by
    intro j j' x y hx hy hj
    obtain ⟨a1, a2⟩ := List.getElem?_eq_some_iff.1 hx
    obtain ⟨b1, b2⟩ := List.getElem?_eq_some_iff.1 hy
    rw [← a2, ← b2]
    exact List.pairwise_iff_getElem.1 hs j j' a1 b1 hj
  refine ⟨?_, ?_⟩
  · intro hz
    have key : ∀ (k k' : ℕ) (lo hi lo' hi' : K), bs[k]? = some lo → bs[k + 1]? = some hi →
        bs[k']? = some lo' → bs[k' + 1]? = some hi' → InBin zs lo hi i → InBin zs lo' hi' i →
        ¬ k < k' := by
      rintro k k' lo hi' lo' hi'' h1 h2 h3 h4 ⟨x, x1, x2, x3⟩ ⟨y, y1, y2, y3⟩ hkk
      rw [hi] at x1 y1
      simp only [Option.some.injEq] at x1 y1
      subst x1 y1
      have hle : hi' ≤ lo' := by
        rcases Nat.lt_or_ge (k + 1) k' with hlt | hge
        · exact hmono _ _ _ _ h2 h3 hlt
        · have : k + 1 = k' := by omega
          subst this
          rw [h2] at h3
          simp only [Option.some.injEq] at h3
          exact h3.le
      have : z = hi' := le_antisymm x3 (le_trans hle y2)
      exact hz (this ▸ List.mem_of_getElem? h2)
    intro k k' lo hi' lo' hi'' h1 h2 h3 h4 h5 h6
    have := key k k' _ _ _ _ h1 h2 h3 h4 h5 h6
    have := key k' k _ _ _ _ h3 h4 h1 h2 h6 h5
    omega
  · intro first last h0 hl hlen hf hz
    have hgl : bs[bs.length - 1]? = some last := by rw [← hl, List.getLast?_eq_getElem?]
    -- the last edge not above z, other than the last one
    have : ∀ n : ℕ, n + 1 < bs.length → ∃ (k : ℕ) (lo hi : K), bs[k]? = some lo ∧
        bs[k + 1]? = some hi ∧ lo ≤ z ∧ (z ≤ hi ∨ k = n) := by
      intro n
      induction n with
      | zero =>
        intro hn
        exact ⟨0, first, bs[1], h0, List.getElem?_eq_getElem (by omega), hf, Or.inr rfl⟩
      | succ n ih =>
        intro hn
        obtain ⟨k, lo, hi', a1, a2, a3, a4⟩ := ih (by omega)
        rcases a4 with a4 | rfl
        · exact ⟨k, lo, hi', a1, a2, a3, Or.inl a4⟩
        · rcases le_total z hi' with hle | hle
          · exact ⟨k, lo, hi', a1, a2, a3, Or.inl hle⟩
          · exact ⟨k + 1, hi', bs[k + 1 + 1], a2, List.getElem?_eq_getElem (by omega), hle, Or.inr rfl⟩
    obtain ⟨k, lo, hi', a1, a2, a3, a4⟩ := this (bs.length - 2) (by omega)
    refine ⟨k, lo, hi', a1, a2, z, hi, a3, ?_⟩
    rcases a4 with a4 | rfl
    · exact a4
    · have e : bs.length - 2 + 1 = bs.length - 1 := by omega
      rw [e, hgl] at a2
      simp only [Option.some.injEq] at a2
      exact a2 ▸ hz

/-- C38, against: every object whose redshift is an inner edge is counted in two bins. -/
theorem C38_edge_twice (bs : List K) (hs : bs.Pairwise (· ≤ ·)) (zs : List (V K)) (i k : ℕ)
    (lo z hi : K) (h0 : bs[k]? = some lo) (h1 : bs[k + 1]? = some z) (h2 : bs[k + 2]? = some hi)
    (hi' : zs[i]? = some (some z)) : InBin zs lo z i ∧ InBin zs z hi i := by
  have hmono : ∀ (j j' : ℕ) (x y : K), bs[j]? = some x → bs[j']? = some y → j < j' → x ≤ y := by
    intro j j' x y hx hy hj
    obtain ⟨a1, a2⟩ := List.getElem?_eq_some_iff.1 hx
    obtain ⟨b1, b2⟩ := List.getElem?_eq_some_iff.1 hy
    rw [← a2, ← b2]
    exact List.pairwise_iff_getElem.1 hs j j' a1 b1 hj
  exact ⟨⟨z, hi', hmono _ _ _ _ h0 h1 (by omega), le_rfl⟩,
    ⟨z, hi', le_rfl, hmono _ _ _ _ h1 h2 (by omega)⟩⟩

/-- C38, against: the objects selected before the call play no role; the results are the same for
every selection. -/
theorem C38_selection_ignored (s : State K) (bins : List K)
    (f : PyDict Name (Arg K) → Except Err α) (a : EvoArgs K) (vol : Bool → K → K → Except Err K)
    (other : PyDict Name (Arg K)) (act : List ℕ) (n : ℕ) :
    (evalStatEvo { s with active := act, nActive := n } bins f a vol other).2 =
      (evalStatEvo s bins f a vol other).2 := by
  have key : ∀ (l : List (K × K)) (o : PyDict Name (Arg K)) (g : Bool),
      (evoLoop f a g (vol g) l { s with active := act, nActive := n } o).2 =
        (evoLoop f a g (vol g) l s o).2 := by
    intro l o g
    cases l with
    | nil => rfl
    | cons p rest =>
      obtain ⟨lo, hi⟩ := p
      have hret : Handler.returnProperty { s with active := act, nActive := n } "redshift" true
          (some s.inH) = Handler.returnProperty s "redshift" true (some s.inH) := rfl
      rcases hz : Handler.returnProperty s "redshift" true (some s.inH) with e | zs
      · simp only [evoLoop, Handler.setRange, Option.getD_none, hz, hret]
      · cases zs with
        | none => simp only [evoLoop, Handler.setRange, Option.getD_none, hz, hret]
        | some zs =>
          simp only [evoLoop, setRange_bin s s s.active s.nActive rfl zs hz lo hi,
            setRange_bin s _ act n rfl zs hz lo hi]
  have k := key ((bins.insertionSort (· ≤ ·)).zip (bins.insertionSort (· ≤ ·)).tail) other
    (a.giveH.getD s.inH)
  unfold evalStatEvo
  simp only
  rcases h1 : evoLoop f a (a.giveH.getD s.inH) (vol (a.giveH.getD s.inH))
      ((bins.insertionSort (· ≤ ·)).zip (bins.insertionSort (· ≤ ·)).tail) s other with
    ⟨r1, e1 | v1⟩ <;>
  rcases h2 : evoLoop f a (a.giveH.getD s.inH) (vol (a.giveH.getD s.inH))
      ((bins.insertionSort (· ≤ ·)).zip (bins.insertionSort (· ≤ ·)).tail)
      { s with active := act, nActive := n } other with ⟨r2, e2 | v2⟩ <;>
  rw [h1, h2] at k <;> simp at k ⊢ <;> exact k

/-- C38: after a successful call the selection and everything else is as before, except the number of
active objects. -/
theorem C38_restored_partial (s s' : State K) (bins : List K)
    (f : PyDict Name (Arg K) → Except Err α) (a : EvoArgs K) (vol : Bool → K → K → Except Err K)
    (other o' : PyDict Name (Arg K)) (r : List K × List α)
    (h : evalStatEvo s bins f a vol other = ((s', o'), .ok r)) :
    ∃ n, s' = { s with nActive := n } := by
  have key : ∀ (l : List (K × K)) (o : PyDict Name (Arg K)) (g : Bool) (t : State K)
      (act : List ℕ) (n : ℕ), t = { s with active := act, nActive := n } → ∃ act n,
      (evoLoop f a g (vol g) l t o).1.1 = { s with active := act, nActive := n } := by
    intro l
    induction l with
    | nil => intro o g t act n ht; exact ⟨act, n, ht⟩
    | cons p rest ih =>
      obtain ⟨lo, hi⟩ := p
      intro o g t act n ht
      rcases hs : Handler.setRange t (some "redshift") (some lo) (some hi) true none with ⟨t1, e | u⟩
      · have hf := Handler.C03_refused t (some "redshift") (some lo) (some hi) true none
          (by rw [hs]; simp)
        rw [hs] at hf
        simp only [evoLoop, hs]
        exact ⟨act, n, by rw [← ht]; exact hf⟩
      · have ht1 : ∃ act n, t1 = { s with active := act, nActive := n } := by
          have := congrArg Prod.fst hs
          simp only [Handler.setRange] at this
          subst ht
          split at this <;> exact ⟨_, _, this.symm⟩
        obtain ⟨act1, n1, ht1⟩ := ht1
        simp only [evoLoop, hs]
        rcases hk : setKws a (vol g) lo hi o with ⟨o1, e | u⟩
        · exact ⟨act1, n1, ht1⟩
        · simp only
          rcases hv : Handler.evalStat t1 f a.kwargs a.remap o1 false (some g) with e | v
          · exact ⟨act1, n1, ht1⟩
          · simp only
            have := ih ((o1.erase "zmin").erase "zmax") g t1 act1 n1 ht1
            rcases hr : evoLoop f a g (vol g) rest t1 ((o1.erase "zmin").erase "zmax") with
              ⟨r, e | vs⟩ <;> rw [hr] at this <;> exact this
  unfold evalStatEvo at h
  simp only at h
  have k := key ((bins.insertionSort (· ≤ ·)).zip (bins.insertionSort (· ≤ ·)).tail) other
    (a.giveH.getD s.inH) s s.active s.nActive rfl
  rcases h1 : evoLoop f a (a.giveH.getD s.inH) (vol (a.giveH.getD s.inH))
      ((bins.insertionSort (· ≤ ·)).zip (bins.insertionSort (· ≤ ·)).tail) s other with
    ⟨⟨s1, o1⟩, e1 | v1⟩
  · rw [h1] at h; simp at h
  rw [h1] at h k
  simp only [Prod.mk.injEq] at h
  obtain ⟨act, n, hk⟩ := k
  refine ⟨n, ?_⟩
  rw [← h.1.1]
  simp only at hk
  rw [hk]

/-- C38, against: the number of active objects reported after the call is the number of objects in the
last bin. -/
theorem C38_count (s s' : State K) (bins : List K)
    (f : PyDict Name (Arg K) → Except Err α) (a : EvoArgs K) (vol : Bool → K → K → Except Err K)
    (other o' : PyDict Name (Arg K)) (bs : List K) (vals : List α) (zs : List (V K))
    (hz : Handler.returnProperty s "redshift" true (some s.inH) = .ok (some zs))
    (h : evalStatEvo s bins f a vol other = ((s', o'), .ok (bs, vals))) (lo hi : K)
    (hl : (bs.zip bs.tail).getLast? = some (lo, hi)) :
    ∃ sel : List ℕ, sel.Nodup ∧ (∀ i, i ∈ sel ↔ InBin zs lo hi i) ∧ s'.nActive = sel.length ∧
      s'.active = s.active := by
  obtain ⟨-, -, -, h4, -⟩ := evo_ok s s' bins f a vol other o' bs vals zs hz h
  obtain ⟨q, -⟩ := h4 _ hl
  refine ⟨_, (bin_sorted zs lo hi).imp (fun h => Nat.ne_of_lt h), mem_bin zs lo hi, ?_, ?_⟩
  · rw [q]
  · rw [q]

/-- C38, against: if the statistic fails in the first bin, the objects of that bin stay selected. -/
theorem C38_failure_keeps_bin (s : State K) (bins : List K)
    (f : PyDict Name (Arg K) → Except Err α) (a : EvoArgs K) (vol : Bool → K → K → Except Err K)
    (other o1 : PyDict Name (Arg K)) (zs : List (V K)) (lo hi : K) (rest : List K) (e : Err)
    (hz : Handler.returnProperty s "redshift" true (some s.inH) = .ok (some zs))
    (hb : bins.insertionSort (· ≤ ·) = lo :: hi :: rest)
    (hk : setKws a (vol (a.giveH.getD s.inH)) lo hi other = (o1, .ok ()))
    (hf : ∀ args, f args = .error e) :
    ∃ sel e', evalStatEvo s bins f a vol other = ((withSelection s sel, o1), .error e') ∧
      ∀ i, i ∈ sel ↔ InBin zs lo hi i := by
  refine ⟨Handler.nonzeroRange (some lo) (some hi) zs, ?_⟩
  have hv : ∃ e', Handler.evalStat (withSelection s (Handler.nonzeroRange (some lo) (some hi) zs)) f
      a.kwargs a.remap o1 false (some (a.giveH.getD s.inH)) = .error e' := by
    unfold Handler.evalStat
    split
    · exact ⟨_, rfl⟩
    · exact ⟨e, hf _⟩
  obtain ⟨e', hv⟩ := hv
  refine ⟨e', ?_, mem_bin zs lo hi⟩
  unfold evalStatEvo
  simp only [hb, List.tail_cons, List.zip_cons_cons, evoLoop,
    setRange_bin s s s.active s.nActive rfl zs hz lo hi, hk, hv]

/-! ## C73 -/

/-- C73: in every bin the statistic gets the caller's keywords (other than the three reserved ones),
and the edges and the volume of that bin where asked for. -/
theorem C73_keywords_partial (s s' : State K) (bins : List K)
    (f : PyDict Name (Arg K) → Except Err α) (a : EvoArgs K) (vol : Bool → K → K → Except Err K)
    (other o' : PyDict Name (Arg K)) (bs : List K) (vals : List α) (zs : List (V K))
    (hz : Handler.returnProperty s "redshift" true (some s.inH) = .ok (some zs))
    (h : evalStatEvo s bins f a vol other = ((s', o'), .ok (bs, vals)))
    (k : ℕ) (lo hi : K) (h1 : bs[k]? = some lo) (h2 : bs[k + 1]? = some hi) :
    ∃ v sel o1, vals[k]? = some v ∧ (∀ i, i ∈ sel ↔ InBin zs lo hi i) ∧
      Handler.evalStat (withSelection s sel) f a.kwargs a.remap o1 false
        (some (a.giveH.getD s.inH)) = .ok v ∧
      (∀ kw, kw ≠ "zmin" → kw ≠ "zmax" → kw ≠ "volume" → o1.get? kw = other.get? kw) ∧
      (a.zminKw = true → o1.get? "zmin" = some (.scalar lo)) ∧
      (a.zmaxKw = true → o1.get? "zmax" = some (.scalar hi)) ∧
      (a.volumeKw = true → ∃ w, vol (a.giveH.getD s.inH) lo hi = .ok w ∧
        o1.get? "volume" = some (.scalar w)) ∧
      (a.volumeKw = false → o1.get? "volume" = other.get? "volume") ∧
      -- keywords `zmin`, `zmax` of the caller that are not set for each bin: only in the first bin
      (a.zminKw = false → o1.get? "zmin" = if k = 0 then other.get? "zmin" else none) ∧
      (a.zmaxKw = false → o1.get? "zmax" = if k = 0 then other.get? "zmax" else none) := by
  obtain ⟨-, g2, -⟩ := evo_ok s s' bins f a vol other o' bs vals zs hz h
  obtain ⟨v, o1, q1, ⟨b1, b2, b3, b4⟩, q3⟩ := g2 k lo hi h1 h2
  refine ⟨v, _, o1, q1, mem_bin zs lo hi, q3, b1, ?_, ?_, ?_, ?_, ?_, ?_⟩
  · intro hh; rw [b2, hh]; rfl
  · intro hh; rw [b3, hh]; rfl
  · intro hh; rw [hh] at b4; exact b4
  · intro hh; rw [hh] at b4; exact b4
  · intro hh; rw [b2, hh]; simp
  · intro hh; rw [b3, hh]; simp

/-- C73, against: the caller's dictionary is changed: `zmin` and `zmax` are removed from it, and the
volume of the last bin stays in it.  (The default dictionary is shared by all calls, so that
the next call without arguments gets a keyword `volume`.) -/
theorem C73_dictionary_changed (s s' : State K) (bins : List K)
    (f : PyDict Name (Arg K) → Except Err α) (a : EvoArgs K) (vol : Bool → K → K → Except Err K)
    (other o' : PyDict Name (Arg K)) (bs : List K) (vals : List α) (zs : List (V K))
    (hz : Handler.returnProperty s "redshift" true (some s.inH) = .ok (some zs))
    (h : evalStatEvo s bins f a vol other = ((s', o'), .ok (bs, vals))) (lo hi : K)
    (hl : (bs.zip bs.tail).getLast? = some (lo, hi)) :
    o'.get? "zmin" = none ∧ o'.get? "zmax" = none ∧
    (a.volumeKw = true → ∃ w, vol (a.giveH.getD s.inH) lo hi = .ok w ∧
      o'.get? "volume" = some (.scalar w)) ∧
    (∀ kw, kw ≠ "zmin" → kw ≠ "zmax" → kw ≠ "volume" → o'.get? kw = other.get? kw) ∧
    (a.volumeKw = false → o'.get? "volume" = other.get? "volume") := by
  obtain ⟨-, -, -, h4, -⟩ := evo_ok s s' bins f a vol other o' bs vals zs hz h
  obtain ⟨-, q1, q2, q3, q4, q5⟩ := h4 _ hl
  exact ⟨q2, q3, q5, q1, q4⟩

/-- C73, against: a statistic that takes no keyword `volume` fails in every later call that uses the
same (for instance the default) dictionary. -/
theorem C73_next_call_fails (s : State K) (bins : List K) (f : PyDict Name (Arg K) → Except Err α)
    (a : EvoArgs K) (vol : Bool → K → K → Except Err K) (o' : PyDict Name (Arg K)) (zs : List (V K))
    (hz : Handler.returnProperty s "redshift" true (some s.inH) = .ok (some zs))
    (w : K) (ho : o'.get? "volume" = some (.scalar w)) (hv : a.volumeKw = false)
    (hkw : "volume" ∉ a.kwargs)
    (hf : ∀ args, args.has "volume" = true → f args = .error .typeError) (hb : 2 ≤ bins.length) :
    ∃ e, (evalStatEvo s bins f a vol o').2 = .error e := by
  rcases hr : evalStatEvo s bins f a vol o' with ⟨⟨s1, o1⟩, e | ⟨bs, vals⟩⟩
  · exact ⟨e, rfl⟩
  · exfalso
    obtain ⟨g1, g2, g3, -⟩ := evo_ok s s1 bins f a vol o' o1 bs vals zs hz hr
    have hlen : bs.length = bins.length := by rw [g1]; exact List.length_insertionSort _ _
    obtain ⟨v, oo, q1, ⟨b1, b2, b3, b4⟩, q3⟩ := g2 0 bs[0] bs[1]
      (List.getElem?_eq_getElem (by omega)) (List.getElem?_eq_getElem (by omega))
    rw [hv] at b4
    simp only [Bool.false_eq_true, if_false] at b4
    have hoo : oo.get? "volume" = some (.scalar w) := by rw [b4, ho]
    have key : ∀ (kws : List Name) (t : State K) (acc args : PyDict Name (Arg K)) (g : Bool),
        "volume" ∉ kws → acc.has "volume" = true →
        Handler.statArgs t a.remap false g acc kws = .ok args → args.has "volume" = true := by
      intro kws
      induction kws with
      | nil =>
        intro t acc args g _ hacc hst
        simp only [Handler.statArgs, Except.ok.injEq] at hst
        exact hst ▸ hacc
      | cons kw kws ih =>
        intro t acc args g hnot hacc hst
        have hne : ¬ kw = "volume" := fun e => hnot (e ▸ List.mem_cons_self)
        have hnot' : "volume" ∉ kws := fun e => hnot (List.mem_cons_of_mem _ e)
        have hset : ∀ x, (acc.set kw x).has "volume" = true := by
          intro x
          unfold PyDict.has
          rw [PyDict.get?_set, if_neg hne]
          exact hacc
        simp only [Handler.statArgs] at hst
        split at hst
        · split at hst
          · simp at hst
          · exact ih t _ args g hnot' (hset _) hst
          · exact ih t _ args g hnot' (hset _) hst
        · split at hst
          · exact ih t _ args g hnot' (hset _) hst
          · simp at hst
    unfold Handler.evalStat at q3
    split at q3
    · simp at q3
    · rename_i args hargs
      have := key a.kwargs _ _ args _ hkw (by unfold PyDict.has; rw [hoo]; rfl) hargs
      rw [hf args this] at q3
      simp at q3

/-! ## Examples and the full statements -/

/-- A dataset without dependence on h. -/
def exData (vals : List (V ℚ)) : Handler.Dataset ℚ :=
  { vals := vals, units := some "None", hdep := some 0, userdefined := false }

/-- A lightcone with four objects. -/
def exFile : PyDict Name (Handler.Dataset ℚ) :=
  [("mass", exData [some 5, some 3, some 8, some 1]),
   ("redshift", exData [some 1, some 2, some (5/2), some 3])]

def exState : State ℚ :=
  { file := exFile, h := 1/2, all := ["mass", "redshift"]
    units := [("mass", "None"), ("redshift", "None")], hdep := [("mass", 0), ("redshift", 0)]
    saved := ["mass", "redshift"], nAll := 4, loaded := [], generated := []
    active := [0, 1, 2, 3], nActive := 4, inH := true, extra := [("h", 1/2)] }

theorem exState_init : Handler.init exFile (1/2) true = .ok exState := rfl

theorem exFile_wf : Handler.Spec.WF exFile 4 where
  nodup := by decide
  mass := ⟨_, rfl, rfl⟩
  lengths := by
    intro p d h _
    have h := Handler.get?_mem exFile p d h
    simp only [exFile, List.mem_cons, Prod.mk.injEq, List.not_mem_nil, or_false] at h
    rcases h with h | h <;> rw [h.2] <;> rfl
  units := by
    intro p d h _
    simp only [exFile, List.mem_cons, Prod.mk.injEq, List.not_mem_nil, or_false] at h
    rcases h with h | h <;> rw [h.2] <;> rfl
  hdep := by
    intro p d h _
    simp only [exFile, List.mem_cons, Prod.mk.injEq, List.not_mem_nil, or_false] at h
    rcases h with h | h <;> rw [h.2] <;> rfl

/-- Only the two objects of lowest mass are selected. -/
def exSelected : State ℚ := withSelection exState [1, 3]

theorem exSelected_reachable : Reachable exSelected :=
  ⟨exFile, 4, 1/2, true, exState, exState.extra, [.range (some "mass") none (some 3) true none], exFile_wf,
    exState_init, rfl⟩

/-- The statistic: how many objects. -/
def exCount (args : PyDict Name (Arg ℚ)) : Except Err ℕ :=
  if args.has "volume" then .error .typeError else
  match args.get? "mass" with
  | some (.arr vs) => .ok vs.length
  | _ => .error .typeError

/-- With edges 1, 2, 3: the first bin counts objects 0 and 1, the second 1, 2 and 3 -- although only
two objects are selected; afterwards three objects are reported active. -/
theorem ex_result : (evalStatEvo exSelected [3, 1, 2] exCount { kwargs := ["mass"] }
    (fun _ _ _ => .error .valueError) []).2 = .ok ([1, 2, 3], [2, 3]) := by decide +kernel

theorem ex_active : (evalStatEvo exSelected [3, 1, 2] exCount { kwargs := ["mass"] }
    (fun _ _ _ => .error .valueError) []).1.1.nActive = 3 := by decide +kernel

theorem ex_call : ∃ s' o', evalStatEvo exSelected [3, 1, 2] exCount { kwargs := ["mass"] }
    (fun _ _ _ => .error .valueError) [] = ((s', o'), .ok ([1, 2, 3], [2, 3])) ∧ s'.nActive = 3 :=
  ⟨_, _, by rw [← ex_result], ex_active⟩

/-- C38 in full. -/
def C38_full : Prop :=
  ∀ (s s' : State ℚ) (bins : List ℚ) (f : PyDict Name (Arg ℚ) → Except Err ℕ) (a : EvoArgs ℚ)
    (vol : Bool → ℚ → ℚ → Except Err ℚ) (other o' : PyDict Name (Arg ℚ)) (bs : List ℚ)
    (vals : List ℕ) (zs : List (V ℚ)), Reachable s →
    Handler.returnProperty s "redshift" true (some s.inH) = .ok (some zs) →
    evalStatEvo s bins f a vol other = ((s', o'), .ok (bs, vals)) →
    (s'.active = s.active ∧ s'.nActive = s.nActive) ∧
    ∃ sels : List (List ℕ), sels.length = vals.length ∧
      (∀ (k : ℕ) (lo hi : ℚ) (sel : List ℕ), bs[k]? = some lo → bs[k + 1]? = some hi →
        sels[k]? = some sel → (∀ i ∈ sel, i ∈ s.active ∧ InBin zs lo hi i) ∧
        (∀ i ∈ s.active, ∀ z, zs[i]? = some (some z) → lo < z → z < hi → i ∈ sel) ∧
        ∃ o1 v, vals[k]? = some v ∧ Handler.evalStat (withSelection s sel) f a.kwargs a.remap o1 false
          (some (a.giveH.getD s.inH)) = .ok v) ∧
      (∀ (k k' i : ℕ) (x y : List ℕ), sels[k]? = some x → sels[k']? = some y → i ∈ x → i ∈ y → k = k')

theorem C38_full_false : ¬ C38_full := by
  intro H
  obtain ⟨s', o', hc, hn⟩ := ex_call
  obtain ⟨⟨-, h⟩, -⟩ := H exSelected _ _ _ _ _ _ _ _ _ _ exSelected_reachable (by rfl) hc
  rw [hn] at h
  exact absurd h (by decide)

/-- C73 in full: the caller's dictionary is as before, and every keyword of the caller is passed in
every bin unless it is set for the bin. -/
def C73_full : Prop :=
  ∀ (s s' : State ℚ) (bins : List ℚ) (f : PyDict Name (Arg ℚ) → Except Err ℕ) (a : EvoArgs ℚ)
    (vol : Bool → ℚ → ℚ → Except Err ℚ) (other o' : PyDict Name (Arg ℚ)) (bs : List ℚ)
    (vals : List ℕ), Reachable s →
    evalStatEvo s bins f a vol other = ((s', o'), .ok (bs, vals)) →
    ∀ kw, (o'.get? kw).isSome = (other.get? kw).isSome

/-- A statistic that needs the volume. -/
def exDensity (args : PyDict Name (Arg ℚ)) : Except Err ℕ :=
  if args.has "volume" then .ok 1 else .error .typeError

theorem ex_volume : (evalStatEvo exSelected [3, 1, 2] exDensity
    { kwargs := ["mass"], volumeKw := true } (fun _ x y => .ok (y - x)) []).2 =
      .ok ([1, 2, 3], [1, 1]) := by decide +kernel

theorem C73_full_false : ¬ C73_full := by
  intro H
  obtain ⟨s', o', hc⟩ : ∃ s' o', evalStatEvo exSelected [3, 1, 2] exDensity
      { kwargs := ["mass"], volumeKw := true } (fun _ x y => .ok (y - x)) [] =
      ((s', o'), .ok ([1, 2, 3], [1, 1])) := ⟨_, _, by rw [← ex_volume]⟩
  have h1 := H exSelected _ _ _ _ _ _ _ _ _ exSelected_reachable hc "volume"
  obtain ⟨-, -, h2, -⟩ := C73_dictionary_changed exSelected _ _ _ _ _ _ _ _ _
    [some 1, some 2, some (5/2), some 3] (by rfl) hc 2 3 rfl
  obtain ⟨w, -, hw⟩ := h2 rfl
  rw [hw] at h1
  simp at h1

/-- The next call with the same dictionary fails. -/
example : ∃ e, (evalStatEvo exSelected [3, 1, 2] exCount { kwargs := ["mass"] }
    (fun _ _ _ => .error .valueError) [("volume", .scalar (3 - 2))]).2 = .error e :=
  C73_next_call_fails exSelected [3, 1, 2] exCount { kwargs := ["mass"] } _ _
    [some 1, some 2, some (5/2), some 3] (by rfl) (3 - 2) rfl rfl (by decide)
    (fun args h => by simp [exCount, h]) (by decide)

/-- A failing statistic leaves the objects of the first bin selected. -/
example : ∃ sel e', evalStatEvo exSelected [3, 1, 2] (fun _ => (.error .valueError : Except Err ℕ))
    { kwargs := ["mass"] } (fun _ _ _ => .error .valueError) [] =
      ((withSelection exSelected sel, []), .error e') ∧
      ∀ i, i ∈ sel ↔ InBin [some 1, some 2, some (5/2), some (3 : ℚ)] 1 2 i :=
  C38_failure_keeps_bin exSelected [3, 1, 2] _ { kwargs := ["mass"] }
    (fun _ _ _ => .error .valueError) [] [] [some 1, some 2, some (5/2), some 3] 1 2 [3] .valueError
    (by rfl) (by decide +kernel) (by rfl) (fun _ => rfl)

/-- The object at redshift 2 is in both bins. -/
example : InBin [some 1, some 2, some (5/2), some (3 : ℚ)] 1 2 1 ∧
    InBin [some 1, some 2, some (5/2), some (3 : ℚ)] 2 3 1 :=
  C38_edge_twice [1, 2, 3] (by decide +kernel) _ 1 0 1 2 3 rfl rfl rfl rfl

end Verif.LCH
