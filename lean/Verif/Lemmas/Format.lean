import Verif.Spec.Format
import Verif.Lemmas.SnapMeta
import Verif.Lemmas.Sim

/-!
# Formatting one snapshot
-/

namespace Verif.Format

open Verif.Sim (Err SnapMeta pick)
open Spec

variable {K : Type}

/-! ## Loading and converting -/

theorem loadFields_get (raw : Raw K) (keys : List Name) (out : PyDict Name (Col K))
    (h : loadFields raw keys = .ok out) (k : Name) (hk : k ∈ keys) :
    out.get? k = raw.fields.get? k := by
  induction keys generalizing out with
  | nil => cases hk
  | cons a keys ih =>
    unfold loadFields mapE at h
    cases ha : raw.fields.get? a with
    | none => rw [ha] at h; cases h
    | some c =>
      rw [ha] at h
      simp only at h
      split at h
      · cases h
      · rename_i ys hys
        simp only [Except.ok.injEq] at h
        subst h
        rw [PyDict.get?_cons]
        by_cases hak : a = k
        · subst hak; simp [ha]
        · rw [if_neg hak]
          rcases List.mem_cons.1 hk with hk | hk
          · exact absurd hk.symm hak
          · exact ih ys hys hk

theorem convert_get (cat : Cat K) (s : PyDict Name (Col K)) (k : Name) :
    (convert cat s).get? k = (s.get? k).map (fun c =>
      match cat.transform.get? k with
      | some f => f c cat.h
      | none => c) := by
  induction s with
  | nil => rfl
  | cons p s ih =>
    obtain ⟨a, c⟩ := p
    unfold convert at ih ⊢
    rw [List.map_cons, PyDict.get?_cons, PyDict.get?_cons]
    by_cases h : a = k
    · subst h; simp
      cases cat.transform.get? a <;> rfl
    · rw [if_neg h, if_neg h]; exact ih

/-- The arrays used after line 476. -/
def prepared (cat : Cat K) (other : Fields) (raw : Raw K) : Except Err (PyDict Name (Col K)) :=
  match (if raw.n > 0 then loadFields raw (cat.basic.keys ++ other.keys)
      else .ok [] : Except Err (PyDict Name (Col K))) with
  | .error e => .error e
  | .ok s => .ok (if raw.n > 0 then convert cat s else s)

theorem prepared_get (cat : Cat K) (other : Fields) (raw : Raw K) (s : PyDict Name (Col K))
    (h : prepared cat other raw = .ok s) (hn : raw.n > 0) (k : Name)
    (hk : k ∈ cat.basic.keys ++ other.keys) : s.get? k = converted cat raw k := by
  unfold prepared at h
  simp only [hn, if_true] at h
  split at h
  · cases h
  · rename_i s0 hs0
    simp only [Except.ok.injEq] at h
    subst h
    rw [convert_get, loadFields_get raw _ s0 hs0 k hk]
    rfl

/-! ## Basic properties -/

/-- Column `e` of the arrays. -/
def val (s : PyDict Name (Col K)) (e : Entry) (j : ℕ) : Option (Cell K) :=
  match s.get? e.key with
  | none => none
  | some c =>
    if e.width > 1 then
      match row c j with
      | some (.vec l) => (l[e.column]?).map .num
      | _ => none
    else row c j

theorem part_ok (c : Col K) (j : ℕ) (xs : List K) (h : c.part j = .ok xs) :
    ∃ rows, c = .many rows ∧ xs.length = rows.length ∧
      ∀ (k : ℕ) (r : List K), rows[k]? = some r → ∃ x, r[j]? = some x ∧ xs[k]? = some x := by
  cases c with
  | one v => cases h
  | many rows =>
    refine ⟨rows, rfl, ?_⟩
    unfold Col.part at h
    obtain ⟨hl, hf⟩ := (mapE_ok_iff _ _ _).1 h
    refine ⟨hl, ?_⟩
    intro k r hr
    obtain ⟨y, h1, h2⟩ := hf k r hr
    split at h2
    · cases h2
    · rename_i x hx
      simp only [Except.ok.injEq] at h2
      subst h2
      exact ⟨x, hx, h1⟩

/-- A property computed from the arrays: right label, right number of rows, right values. -/
def Right (s : PyDict Name (Col K)) (n : ℕ) (e : Entry) (p : Sub × List K) : Prop :=
  p.1 = e.sub ∧ p.2.length = n ∧ ∀ j, j < n → ∃ v, row (.one p.2) j = some v ∧ val s e j = some v

theorem basicPart_ok (s : PyDict Name (Col K)) (n : ℕ) (key : Name) (w : ℕ) (hw : w > 1)
    (q : Sub × ℕ) (p : Sub × List K) (h : basicPart s n key q = .ok p) :
    Right s n ⟨key, w, q.2, q.1⟩ p := by
  unfold basicPart at h
  by_cases hn : n > 0
  · simp only [hn, if_true] at h
    split at h
    · cases h
    · rename_i c hc
      split at h
      · cases h
      · rename_i xs hxs
        unfold assign at h
        by_cases hl : xs.length = n
        · simp only [hl, if_true, Except.ok.injEq] at h
          subst h
          obtain ⟨rows, rfl, hlen, hf⟩ := part_ok c q.2 xs hxs
          refine ⟨rfl, hl, ?_⟩
          intro j hj
          have hr : rows[j]? = some (rows[j]'(by omega)) := List.getElem?_eq_getElem (by omega)
          obtain ⟨x, h1, h2⟩ := hf j _ hr
          refine ⟨.num x, by simp [row, h2], ?_⟩
          simp only [val, hc, hw, if_true, row, hr, Option.map_some, h1]
        · simp [hl] at h
  · simp only [hn, if_false, Except.ok.injEq] at h
    subst h
    exact ⟨rfl, by simp; omega, fun j hj => absurd hj (by omega)⟩

theorem basicOne_ok (s : PyDict Name (Col K)) (n : ℕ) (f : Name × List Sub)
    (l : List (Sub × List K)) (h : basicOne s n f = .ok l) :
    (∀ p ∈ l, ∃ e, Promised [f] e ∧ Right s n e p) ∧
      (∀ e, Promised [f] e → ∃ p ∈ l, Right s n e p) := by
  obtain ⟨key, subs⟩ := f
  unfold basicOne at h
  simp only at h
  by_cases hw : subs.length > 1
  · simp only [hw, if_true] at h
    constructor
    · intro p hp
      obtain ⟨q, hq, hq2⟩ := mapE_mem h p hp
      refine ⟨⟨key, subs.length, q.2, q.1⟩, ⟨subs, by simp, rfl, ?_⟩,
        basicPart_ok s n key _ hw q p hq2⟩
      exact List.mk_mem_zipIdx_iff_getElem?.1 (by simpa using hq)
    · rintro ⟨k, w, c, sub⟩ ⟨subs', hm, hw', hc⟩
      simp only [List.mem_singleton, Prod.mk.injEq] at hm
      obtain ⟨rfl, rfl⟩ := hm
      simp only at hw' hc
      subst hw'
      obtain ⟨p, hp, hp2⟩ := mapE_mem' h (sub, c) (List.mk_mem_zipIdx_iff_getElem?.2 hc)
      exact ⟨p, hp, basicPart_ok s n k _ hw (sub, c) p hp2⟩
  · simp only [hw, if_false] at h
    cases subs with
    | nil => cases h
    | cons a rest =>
      have hr : rest = [] := by
        cases rest with
        | nil => rfl
        | cons b r => simp at hw
      subst hr
      have main : ∃ xs, l = [(a, xs)] ∧ Right s n ⟨key, 1, 0, a⟩ (a, xs) := by
        simp only at h
        by_cases hn : n > 0
        · simp only [hn, if_true] at h
          split at h
          · cases h
          · cases h
          · rename_i v hv
            unfold assign at h
            by_cases hl : v.length = n
            · simp only [hl, if_true, Except.ok.injEq] at h
              subst h
              refine ⟨v, rfl, rfl, hl, ?_⟩
              intro j hj
              have hx : v[j]? = some (v[j]'(by omega)) := List.getElem?_eq_getElem (by omega)
              exact ⟨.num (v[j]'(by omega)), by simp [row, hx], by simp [val, hv, row, hx]⟩
            · simp [hl] at h
        · simp only [hn, if_false, Except.ok.injEq] at h
          subst h
          exact ⟨[], rfl, rfl, by simp; omega, fun j hj => absurd hj (by omega)⟩
      obtain ⟨xs, rfl, hR⟩ := main
      constructor
      · intro p hp
        simp only [List.mem_singleton] at hp
        subst hp
        exact ⟨_, ⟨[a], by simp, rfl, rfl⟩, hR⟩
      · rintro ⟨k, w, c, sub⟩ ⟨subs', hm, hw', hc⟩
        simp only [List.mem_singleton, Prod.mk.injEq] at hm
        obtain ⟨rfl, rfl⟩ := hm
        simp only [List.length_singleton] at hw' hc
        subst hw'
        have hc0 : c = 0 := by
          cases c with
          | zero => rfl
          | succ c => simp at hc
        subst hc0
        have : a = sub := by simpa using hc
        subst this
        exact ⟨_, by simp, hR⟩

theorem promised_cons (f : Name × List Sub) (fs : Fields) (e : Entry) :
    Promised (f :: fs) e ↔ Promised [f] e ∨ Promised fs e := by
  unfold Promised
  constructor
  · rintro ⟨subs, hm, h⟩
    rcases List.mem_cons.1 hm with hm | hm
    · exact Or.inl ⟨subs, by simp [hm], h⟩
    · exact Or.inr ⟨subs, hm, h⟩
  · rintro (⟨subs, hm, h⟩ | ⟨subs, hm, h⟩)
    · exact ⟨subs, by simp at hm; simp [hm], h⟩
    · exact ⟨subs, List.mem_cons_of_mem _ hm, h⟩

theorem promised_mem {fs : Fields} {e : Entry} (h : Promised fs e) : e.key ∈ fs.keys := by
  obtain ⟨subs, hm, _⟩ := h
  exact List.mem_map.2 ⟨_, hm, rfl⟩

theorem promised_iff {fs : Fields} {e : Entry} : Promised fs e ↔ ∃ f ∈ fs, Promised [f] e := by
  unfold Promised
  constructor
  · rintro ⟨subs, hm, h⟩
    exact ⟨_, hm, subs, by simp, h⟩
  · rintro ⟨f, hf, subs, hm, h⟩
    simp only [List.mem_singleton] at hm
    exact ⟨subs, by rw [hm]; exact hf, h⟩

theorem basicAll_ok (s : PyDict Name (Col K)) (n : ℕ) (fs : Fields)
    (l : List (Sub × List K)) (h : basicAll s n fs = .ok l) :
    (∀ p ∈ l, ∃ e, Promised fs e ∧ Right s n e p) ∧
      (∀ e, Promised fs e → ∃ p ∈ l, Right s n e p) := by
  unfold basicAll at h
  split at h
  · cases h
  · rename_i ls hls
    simp only [Except.ok.injEq] at h
    subst h
    constructor
    · intro p hp
      obtain ⟨l, hl, hp⟩ := List.mem_flatten.1 hp
      obtain ⟨f, hf, hf2⟩ := mapE_mem hls l hl
      obtain ⟨e, he, hR⟩ := (basicOne_ok s n f l hf2).1 p hp
      exact ⟨e, promised_iff.2 ⟨f, hf, he⟩, hR⟩
    · intro e he
      obtain ⟨f, hf, he⟩ := promised_iff.1 he
      obtain ⟨l, hl, hf2⟩ := mapE_mem' hls f hf
      obtain ⟨p, hp, hR⟩ := (basicOne_ok s n f l hf2).2 e he
      exact ⟨p, List.mem_flatten.2 ⟨l, hl, hp⟩, hR⟩

/-! ## Sorting -/

theorem pick_ok {α : Type} (xs : List α) (is : List ℕ) (out : List α) (h : pick xs is = .ok out) :
    out.length = is.length ∧ ∀ k : ℕ, out[k]? = (is[k]?).bind (fun i => xs[i]?) := by
  induction is generalizing out with
  | nil =>
    simp only [pick, Except.ok.injEq] at h
    subst h
    simp
  | cons i is ih =>
    unfold pick at h
    split at h
    · cases h
    · rename_i x hx
      split at h
      · cases h
      · rename_i r hr
        simp only [Except.ok.injEq] at h
        subst h
        obtain ⟨h1, h2⟩ := ih r hr
        refine ⟨by simp [h1], ?_⟩
        intro k
        cases k with
        | zero => simp [hx]
        | succ k => simpa using h2 k

theorem take_ok (c c' : Col K) (inds : List ℕ) (h : c.take inds = .ok c') :
    size c' = inds.length ∧ ∀ k j : ℕ, inds[k]? = some j → row c' k = row c j ∧
      (row c j).isSome := by
  cases c with
  | one v =>
    unfold Col.take at h
    simp only at h
    split at h
    · cases h
    · rename_i xs hxs
      simp only [Except.ok.injEq] at h
      subst h
      obtain ⟨h1, h2⟩ := pick_ok v inds xs hxs
      refine ⟨h1, ?_⟩
      intro k j hk
      have := h2 k
      rw [hk] at this
      have hlt : k < xs.length := by
        rw [h1]
        rcases Nat.lt_or_ge k inds.length with h | h
        · exact h
        · rw [List.getElem?_eq_none h] at hk; cases hk
      rw [List.getElem?_eq_getElem hlt] at this
      simp only [Option.bind_some] at this
      simp [row, ← this, List.getElem?_eq_getElem hlt]
  | many rows =>
    unfold Col.take at h
    simp only at h
    split at h
    · cases h
    · rename_i xs hxs
      simp only [Except.ok.injEq] at h
      subst h
      obtain ⟨h1, h2⟩ := pick_ok rows inds xs hxs
      refine ⟨h1, ?_⟩
      intro k j hk
      have := h2 k
      rw [hk] at this
      have hlt : k < xs.length := by
        rw [h1]
        rcases Nat.lt_or_ge k inds.length with h | h
        · exact h
        · rw [List.getElem?_eq_none h] at hk; cases hk
      rw [List.getElem?_eq_getElem hlt] at this
      simp only [Option.bind_some] at this
      simp [row, ← this, List.getElem?_eq_getElem hlt]

theorem sortBasic_ok (inds : List ℕ) (l l' : List (Sub × List K)) (h : sortBasic inds l = .ok l') :
    l'.map (·.1) = l.map (·.1) ∧
    (∀ p ∈ l, ∃ ys, (p.1, ys) ∈ l' ∧ pick p.2 inds = .ok ys) ∧
    (∀ q ∈ l', ∃ xs, (q.1, xs) ∈ l ∧ pick xs inds = .ok q.2) ∧
    (∀ nm p, l.find? (fun p => p.1.name = nm) = some p →
      ∃ ys, l'.find? (fun p => p.1.name = nm) = some (p.1, ys) ∧ pick p.2 inds = .ok ys) := by
  induction l generalizing l' with
  | nil =>
    simp only [sortBasic, mapE, Except.ok.injEq] at h
    subst h
    simp
  | cons p l ih =>
    unfold sortBasic mapE at h
    cases hp : pick p.2 inds with
    | error e => simp only [hp] at h; cases h
    | ok ys =>
      simp only [hp] at h
      split at h
      · cases h
      · rename_i l2 hl2
        simp only [Except.ok.injEq] at h
        subst h
        obtain ⟨i0, i1, i2, i3⟩ := ih l2 hl2
        refine ⟨by simp [i0], ?_, ?_, ?_⟩
        · intro q hq
          rcases List.mem_cons.1 hq with rfl | hq
          · exact ⟨ys, by simp, hp⟩
          · obtain ⟨zs, h1, h2⟩ := i1 q hq
            exact ⟨zs, List.mem_cons_of_mem _ h1, h2⟩
        · intro q hq
          rcases List.mem_cons.1 hq with rfl | hq
          · exact ⟨p.2, by simp, hp⟩
          · obtain ⟨zs, h1, h2⟩ := i2 q hq
            exact ⟨zs, List.mem_cons_of_mem _ h1, h2⟩
        · intro nm q hq
          rw [List.find?_cons] at hq ⊢
          by_cases hnm : p.1.name = nm
          · simp only [hnm, decide_true, Option.some.injEq] at hq ⊢
            subst hq
            exact ⟨ys, rfl, hp⟩
          · simp only [hnm, decide_false] at hq ⊢
            exact i3 nm q hq

theorem sortOther_ok (s : PyDict Name (Col K)) (n : ℕ) (inds : List ℕ) (fs : Fields)
    (out : PyDict Name (Col K)) (h : sortOther s n inds fs = .ok out) (k : Name)
    (hk : k ∈ fs.keys) :
    if n > 0 then ∃ c c', s.get? k = some c ∧ c.take inds = .ok c' ∧ out.get? k = some c'
    else out.get? k = some (.many []) := by
  induction fs generalizing out with
  | nil => cases hk
  | cons f fs ih =>
    unfold sortOther mapE at h
    by_cases hn : n > 0
    · simp only [hn, if_true] at h ih ⊢
      cases hc : s.get? f.1 with
      | none => simp only [hc] at h; cases h
      | some c =>
        simp only [hc] at h
        cases hc' : c.take inds with
        | error e => simp only [hc'] at h; cases h
        | ok c' =>
          simp only [hc'] at h
          split at h
          · cases h
          · rename_i ys hys
            simp only [Except.ok.injEq] at h
            subst h
            rw [PyDict.get?_cons]
            by_cases hfk : f.1 = k
            · subst hfk
              exact ⟨c, c', hc, hc', by simp⟩
            · rw [if_neg hfk]
              rcases List.mem_cons.1 hk with hk | hk
              · exact absurd hk.symm hfk
              · exact ih ys (by unfold sortOther; simp only [hn, if_true]; exact hys) hk
    · simp only [hn, if_false] at h ih ⊢
      split at h
      · cases h
      · rename_i ys hys
        simp only [Except.ok.injEq] at h
        subst h
        rw [PyDict.get?_cons]
        by_cases hfk : f.1 = k
        · simp [hfk]
        · rw [if_neg hfk]
          rcases List.mem_cons.1 hk with hk | hk
          · exact absurd hk.symm hfk
          · exact ih ys (by unfold sortOther; simp only [hn, if_false]; exact hys) hk

end Verif.Format
