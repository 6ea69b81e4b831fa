import Verif.Lemmas.Loaders
import Mathlib.Algebra.Order.Ring.Rat
import Mathlib.Tactic.NormNum

set_option linter.unusedSectionVars false

/-!
# C84: binary UniverseMachine catalogues; C85: Uchuu catalogues
-/

namespace Verif.Load
open Verif.Sim (Err)

variable {K : Type}

/-- Is a halo to be left out (bit 16 of its flags)? -/
def Spec.Removed (r : Rec K) : Prop := r.flags.testBit 4 = true

instance (r : Rec K) : Decidable (Spec.Removed r) := by unfold Spec.Removed; infer_instance

theorem flag_iff (n : ℕ) : n &&& 16 ≠ 16 ↔ n.testBit 4 = false := by
  have h16 : (16 : ℕ) = 2 ^ 4 := rfl
  constructor
  · intro h
    by_contra hb
    apply h
    apply Nat.eq_of_testBit_eq
    intro i
    rw [Nat.testBit_and, h16, Nat.testBit_two_pow]
    by_cases hi : 4 = i
    · subst hi; simpa using hb
    · simp [hi]
  · intro h he
    have := congrArg (fun m => m.testBit 4) he
    simp only [Nat.testBit_and] at this
    rw [h] at this
    simp at this
    exact absurd this (by decide)

theorem column_ok (recs : List (Rec K)) (key : Name) (q : Name × List (List K))
    (h : column recs key = .ok q) :
    q.1 = key ∧ q.2.map some = recs.map (fun r => r.fields.get? key) := by
  unfold column at h
  rcases hm : mapE (entry key) recs with e | l
  · rw [hm] at h; cases h
  · rw [hm] at h
    simp only [Except.ok.injEq] at h
    subst h
    refine ⟨rfl, ?_⟩
    induction recs generalizing l with
    | nil => simp [mapE] at hm; subst hm; rfl
    | cons r rs ih =>
      unfold mapE at hm
      rcases he : entry key r with e | x
      · rw [he] at hm; cases hm
      · rw [he] at hm
        simp only at hm
        rcases hm' : mapE (entry key) rs with e | l'
        · rw [hm'] at hm; cases hm
        · rw [hm'] at hm
          simp only [Except.ok.injEq] at hm
          subst hm
          have := ih l' hm'
          simp only [List.map_cons, this, List.cons.injEq, and_true]
          unfold entry at he
          split at he
          · cases he
          · rename_i y hy
            simp only [Except.ok.injEq] at he
            rw [hy, he]

theorem columns_get (recs : List (Rec K)) (fields : List Name) (d : PyDict Name (List (List K)))
    (h : mapE (column recs) fields = .ok d) (name : Name) (hn : name ∈ fields) :
    ∃ l, d.get? name = some l ∧ l.map some = recs.map (fun r => r.fields.get? name) := by
  induction fields generalizing d with
  | nil => simp at hn
  | cons x xs ih =>
    unfold mapE at h
    rcases hc : column recs x with e | q
    · rw [hc] at h; cases h
    · rw [hc] at h
      simp only at h
      rcases hm : mapE (column recs) xs with e | d'
      · rw [hm] at h; cases h
      · rw [hm] at h
        simp only [Except.ok.injEq] at h
        subst h
        obtain ⟨h1, h2⟩ := column_ok recs x q hc
        obtain ⟨qk, qv⟩ := q
        simp only at h1 h2
        subst h1
        rw [PyDict.get?_cons]
        by_cases hx : qk = name
        · subst hx
          exact ⟨qv, by simp, h2⟩
        · rw [if_neg hx]
          exact ih d' hm (by simpa [Ne.symm hx] using hn)

/-- C84, halos and values: the halos that are not marked as removed, in the order of the file, each with the
values of the file; the number is theirs. -/
theorem C84_values (recs : List (Rec K)) (fields : List Name) (d : PyDict Name (List (List K))) (n : ℕ)
    (h : binLoader recs fields = .ok (d, n)) :
    n = recs.countP (fun r => decide (¬ Spec.Removed r)) ∧
    ∀ name ∈ fields, ∃ l, d.get? name = some l ∧
      l.map some = (recs.filter (fun r => decide (¬ Spec.Removed r))).map
        (fun r => r.fields.get? name) := by
  have hfil : recs.filter (fun r => decide (r.flags &&& 16 ≠ 16))
      = recs.filter (fun r => decide (¬ Spec.Removed r)) := by
    apply List.filter_congr
    intro r _
    simp only [Spec.Removed, Bool.not_eq_true, decide_eq_decide]
    exact flag_iff r.flags
  unfold binLoader at h
  simp only [hfil] at h
  rcases hm : mapE (column (recs.filter (fun r => decide (¬ Spec.Removed r)))) fields with e | d'
  · rw [hm] at h; cases h
  · rw [hm] at h
    simp only at h
    split at h
    · simp only [Except.ok.injEq, Prod.mk.injEq] at h
      obtain ⟨rfl, rfl⟩ := h
      refine ⟨by rw [List.countP_eq_length_filter], ?_⟩
      intro name hn
      exact columns_get _ fields d' hm name hn
    · cases h

/-- A position inside the box. -/
def Spec.InBox [LT K] [LE K] [Zero K] (box : K) (row : List K) : Prop :=
  ∀ x ∈ row.take 3, 0 ≤ x ∧ x < box

/-- C84 in full: the positions read lie inside the box. -/
def C84_full : Prop :=
  ∀ (box : ℚ) (recs : List (Rec ℚ)) (fields : List Name) (d : PyDict Name (List (List ℚ))) (n : ℕ),
    0 < box → binLoader recs fields = .ok (d, n) →
    ∀ l, d.get? "pos" = some l → ∀ row ∈ l, Spec.InBox box row

/-- Positions outside the box stay outside: the positions read are inside exactly if those in the
file are. -/
theorem C84_inside_iff [LT K] [LE K] [Zero K] (box : K) (recs : List (Rec K)) (fields : List Name)
    (d : PyDict Name (List (List K))) (n : ℕ) (hf : "pos" ∈ fields)
    (h : binLoader recs fields = .ok (d, n)) :
    ∃ l, d.get? "pos" = some l ∧
      ((∀ row ∈ l, Spec.InBox box row) ↔
        ∀ r ∈ recs, ¬ Spec.Removed r → ∀ row, r.fields.get? "pos" = some row → Spec.InBox box row) := by
  obtain ⟨l, hl, hl'⟩ := (C84_values recs fields d n h).2 "pos" hf
  refine ⟨l, hl, ?_⟩
  have hmem : ∀ row, row ∈ l ↔ ∃ r ∈ recs, ¬ Spec.Removed r ∧ r.fields.get? "pos" = some row := by
    intro row
    have : row ∈ l ↔ some row ∈ l.map some := by simp
    rw [this, hl', List.mem_map]
    constructor
    · rintro ⟨r, hr, hr'⟩
      rw [List.mem_filter] at hr
      exact ⟨r, hr.1, by simpa using hr.2, hr'⟩
    · rintro ⟨r, hr, hn, hr'⟩
      exact ⟨r, List.mem_filter.2 ⟨hr, by simpa using hn⟩, hr'⟩
  constructor
  · intro H r hr hn row hrow
    exact H row ((hmem row).2 ⟨r, hr, hn, hrow⟩)
  · intro H row hrow
    obtain ⟨r, hr, hn, h'⟩ := (hmem row).1 hrow
    exact H r hr hn row h'

/-- Two halos, one of them beyond the edge of a box of size 10 and one marked as removed. -/
def demoRecs : List (Rec ℚ) :=
  [⟨0, [("pos", [1, 2, 3, 0, 0, 0]), ("m", [5])]⟩, ⟨16, [("pos", [1, 1, 1, 0, 0, 0]), ("m", [6])]⟩,
   ⟨3, [("pos", [11, 2, -1, 0, 0, 0]), ("m", [7])]⟩]

example : binLoader demoRecs ["pos", "m"]
    = .ok ([("pos", [[1, 2, 3, 0, 0, 0], [11, 2, -1, 0, 0, 0]]), ("m", [[5], [7]])], 2) := by
  decide +kernel

theorem C84_full_false : ¬ C84_full := by
  intro H
  have h : binLoader demoRecs ["pos", "m"]
      = .ok ([("pos", [[1, 2, 3, 0, 0, 0], [11, 2, -1, 0, 0, 0]]), ("m", [[5], [7]])], 2) := by
    decide +kernel
  have := H 10 demoRecs _ _ _ (by norm_num) h _ rfl [11, 2, -1, 0, 0, 0] (by simp) 11 (by simp)
  norm_num at this

/-! ## Uchuu -/

/-- The field as it is in the data files. -/
def Spec.inFiles (index : PyDict Name ℕ) (files : ℕ → Option (Name → Option (List K)))
    (f : Name) : Option (List K) :=
  (index.get? f).bind (fun df => (files df).bind (fun file => file f))

theorem uchuuFields_ok (file : Name → Option (List K)) (fs : List Name) (part : PyDict Name (List K))
    (h : mapE (uchuuField file) fs = .ok part) :
    part.keys = fs ∧ ∀ q ∈ part, file q.1 = some q.2 := by
  induction fs generalizing part with
  | nil => simp [mapE] at h; subst h; simp [PyDict.keys]
  | cons x xs ih =>
    unfold mapE at h
    rcases hx : uchuuField file x with e | q
    · rw [hx] at h; cases h
    · rw [hx] at h
      simp only at h
      rcases hm : mapE (uchuuField file) xs with e | part'
      · rw [hm] at h; cases h
      · rw [hm] at h
        simp only [Except.ok.injEq] at h
        subst h
        obtain ⟨h1, h2⟩ := ih part' hm
        have hq : q.1 = x ∧ file x = some q.2 := by
          unfold uchuuField at hx
          split at hx
          · cases hx
          · rename_i v hv
            simp only [Except.ok.injEq] at hx
            subst hx; exact ⟨rfl, hv⟩
        refine ⟨?_, ?_⟩
        · simp only [PyDict.keys] at h1
          simp [PyDict.keys, h1, hq.1]
        · intro r hr
          rcases List.mem_cons.1 hr with rfl | hr
          · rw [hq.1]; exact hq.2
          · exact h2 r hr

theorem uchuuFile_ok (index : PyDict Name ℕ) (files : ℕ → Option (Name → Option (List K)))
    (fields : List Name) (df : ℕ) (part : PyDict Name (List K))
    (h : uchuuFile index files fields df = .ok part) :
    (∀ q ∈ part, index.get? q.1 = some df ∧ Spec.inFiles index files q.1 = some q.2) ∧
    (∀ f ∈ fields, index.get? f = some df → ∃ v, (f, v) ∈ part) := by
  unfold uchuuFile at h
  obtain ⟨fs, hfs⟩ : ∃ fs, fs = fields.filter (fun f => decide (index.get? f = some df)) := ⟨_, rfl⟩
  rw [← hfs] at h
  have hmemfs : ∀ f, f ∈ fs ↔ f ∈ fields ∧ index.get? f = some df := by
    intro f; rw [hfs, List.mem_filter]; simp
  rcases hcase : fs with _ | ⟨x, xs⟩
  · rw [hcase] at h
    simp only [Except.ok.injEq] at h
    subst h
    refine ⟨by simp, ?_⟩
    intro f hf hi
    have := (hmemfs f).2 ⟨hf, hi⟩
    rw [hcase] at this; simp at this
  · rw [hcase] at h
    simp only at h
    rcases hfile : files df with _ | file
    · rw [hfile] at h; cases h
    · rw [hfile] at h
      simp only at h
      obtain ⟨h1, h2⟩ := uchuuFields_ok file _ part h
      refine ⟨?_, ?_⟩
      · intro q hq
        have hk : q.1 ∈ fs := by
          rw [hcase, ← h1]; exact List.mem_map.2 ⟨q, hq, rfl⟩
        have hi := ((hmemfs q.1).1 hk).2
        exact ⟨hi, by simp [Spec.inFiles, hi, hfile, h2 q hq]⟩
      · intro f hf hi
        have hk : f ∈ part.keys := by rw [h1, ← hcase]; exact (hmemfs f).2 ⟨hf, hi⟩
        obtain ⟨q, hq, rfl⟩ := List.mem_map.1 hk
        exact ⟨q.2, hq⟩

theorem get?_unique {β : Type} (d : PyDict Name β) (f : Name) (v : β) (hm : (f, v) ∈ d)
    (hu : ∀ w, (f, w) ∈ d → w = v) : d.get? f = some v := by
  induction d with
  | nil => simp at hm
  | cons q d ih =>
    obtain ⟨qk, qv⟩ := q
    rw [PyDict.get?_cons]
    by_cases hq : qk = f
    · subst hq
      rw [if_pos rfl, hu qv (by simp)]
    · rw [if_neg hq]
      refine ih ?_ (fun w hw => hu w (by simp [hw]))
      rcases List.mem_cons.1 hm with h | h
      · simp only [Prod.mk.injEq] at h; exact absurd h.1.symm hq
      · exact h

/-- C85: an accepted snapshot has, for every field asked for, exactly the values of the data files, and
as many of them as halos are reported; so files that disagree are refused. -/
theorem C85_values (index : PyDict Name ℕ) (order : List ℕ)
    (files : ℕ → Option (Name → Option (List K))) (fields : List Name)
    (hord : ∀ f df, index.get? f = some df → df ∈ order)
    (d : PyDict Name (List K)) (n : ℕ) (h : uchuuLoader index order files fields = .ok (d, n)) :
    ∀ f ∈ fields, ∃ v, Spec.inFiles index files f = some v ∧ d.get? f = some v ∧ v.length = n := by
  unfold uchuuLoader at h
  split at h
  · cases h
  rename_i hknown
  rcases hm : mapE (uchuuFile index files fields) order with e | parts
  · rw [hm] at h; cases h
  rw [hm] at h
  simp only at h
  obtain ⟨hlen, hget⟩ := (mapE_ok_iff _ _ _).1 hm
  -- the entries of the parts
  have hsound : ∀ q ∈ parts.flatten, Spec.inFiles index files q.1 = some q.2 := by
    intro q hq
    obtain ⟨part, hp, hq'⟩ := List.mem_flatten.1 hq
    obtain ⟨k, hk, rfl⟩ := List.getElem_of_mem hp
    have hk' : k < order.length := hlen ▸ hk
    obtain ⟨y, hy, hy'⟩ := hget k order[k] (List.getElem?_eq_getElem hk')
    rw [List.getElem?_eq_getElem hk] at hy
    simp only [Option.some.injEq] at hy
    subst hy
    exact ((uchuuFile_ok _ _ _ _ _ hy').1 q hq').2
  have hcomplete : ∀ f ∈ fields, ∃ v, (f, v) ∈ parts.flatten := by
    intro f hf
    have hhas : index.has f = true := by
      by_contra hc
      apply hknown
      rw [List.any_eq_true]
      exact ⟨f, hf, by simpa using hc⟩
    obtain ⟨df, hdf⟩ := Option.isSome_iff_exists.1 hhas
    obtain ⟨k, hk, hke⟩ := List.getElem_of_mem (hord f df hdf)
    obtain ⟨y, hy, hy'⟩ := hget k df (by rw [List.getElem?_eq_getElem hk, hke])
    obtain ⟨v, hv⟩ := (uchuuFile_ok _ _ _ _ _ hy').2 f hf hdf
    exact ⟨v, List.mem_flatten.2 ⟨y, List.mem_of_getElem? hy, hv⟩⟩
  match hfl : parts.flatten with
  | [] => rw [hfl] at h; cases h
  | p :: rest =>
    rw [hfl] at h
    simp only at h
    split at h
    · cases h
    rename_i hany
    simp only [Except.ok.injEq, Prod.mk.injEq] at h
    obtain ⟨rfl, rfl⟩ := h
    intro f hf
    obtain ⟨v, hv⟩ := hcomplete f hf
    have hval := hsound _ hv
    refine ⟨v, hval, ?_, ?_⟩
    · rw [← hfl]
      refine get?_unique _ f v hv ?_
      intro w hw
      have := hsound _ hw
      simp only at this hval
      rw [this] at hval
      exact Option.some.inj hval
    · by_contra hc
      apply hany
      rw [List.any_eq_true]
      exact ⟨(f, v), hfl ▸ hv, by simpa using hc⟩

/-- Conversely, known fields with equal numbers of values are accepted. -/
theorem C85_accepted (index : PyDict Name ℕ) (order : List ℕ)
    (files : ℕ → Option (Name → Option (List K))) (fields : List Name) (hne : fields ≠ [])
    (hord : ∀ f df, index.get? f = some df → df ∈ order) (n : ℕ)
    (hv : ∀ f ∈ fields, ∃ v, Spec.inFiles index files f = some v ∧ v.length = n) :
    ∃ d, uchuuLoader index order files fields = .ok (d, n) := by
  have hfile : ∀ f ∈ fields, ∃ df file v, index.get? f = some df ∧ files df = some file ∧
      file f = some v ∧ v.length = n := by
    intro f hf
    obtain ⟨v, h1, h2⟩ := hv f hf
    unfold Spec.inFiles at h1
    rcases hi : index.get? f with _ | df
    · rw [hi] at h1; cases h1
    · rw [hi] at h1
      simp only [Option.bind_some] at h1
      rcases hfl : files df with _ | file
      · rw [hfl] at h1; cases h1
      · rw [hfl] at h1
        exact ⟨df, file, v, rfl, hfl, by simpa using h1, h2⟩
  obtain ⟨parts, hp⟩ := mapE_total (uchuuFile index files fields) order (by
    intro df _
    unfold uchuuFile
    obtain ⟨fs, hfs⟩ : ∃ fs, fs = fields.filter (fun f => decide (index.get? f = some df)) := ⟨_, rfl⟩
    rw [← hfs]
    rcases hcase : fs with _ | ⟨x, xs⟩
    · exact ⟨[], rfl⟩
    · have hx : x ∈ fs := by rw [hcase]; simp
      rw [hfs, List.mem_filter] at hx
      obtain ⟨df', file, v, a1, a2, -⟩ := hfile x hx.1
      have : df' = df := by
        have := of_decide_eq_true hx.2
        rw [a1] at this; exact Option.some.inj this
      subst this
      simp only [a2]
      refine mapE_total _ _ ?_
      intro f hf
      rw [← hcase, hfs, List.mem_filter] at hf
      obtain ⟨df2, file2, v2, b1, b2, b3, -⟩ := hfile f hf.1
      have e := of_decide_eq_true hf.2
      rw [b1] at e
      have e' := Option.some.inj e
      subst e'
      rw [a2] at b2
      have e'' := Option.some.inj b2
      subst e''
      exact ⟨(f, v2), by simp [uchuuField, b3]⟩)
  have hknown : fields.any (fun f => !index.has f) = false := by
    rw [Bool.eq_false_iff]
    intro hc
    rw [List.any_eq_true] at hc
    obtain ⟨f, hf, hf'⟩ := hc
    obtain ⟨df, file, v, a1, -⟩ := hfile f hf
    simp [PyDict.has, a1] at hf'
  obtain ⟨hlen, hget⟩ := (mapE_ok_iff _ _ _).1 hp
  have hin : ∀ q ∈ parts.flatten, q.2.length = n := by
    intro q hq
    obtain ⟨part, hp', hq'⟩ := List.mem_flatten.1 hq
    obtain ⟨k, hk, rfl⟩ := List.getElem_of_mem hp'
    have hk' : k < order.length := hlen ▸ hk
    obtain ⟨y, hy, hy'⟩ := hget k order[k] (List.getElem?_eq_getElem hk')
    rw [List.getElem?_eq_getElem hk] at hy
    simp only [Option.some.injEq] at hy
    subst hy
    have h1 := ((uchuuFile_ok _ _ _ _ _ hy').1 q hq')
    -- the field was asked for
    have hqf : q.1 ∈ fields := by
      unfold uchuuFile at hy'
      split at hy'
      · simp only [Except.ok.injEq] at hy'
        rw [← hy'] at hq'; simp at hq'
      · rename_i fs hne'
        rcases hfl : files order[k] with _ | file
        · rw [hfl] at hy'; cases hy'
        · rw [hfl] at hy'
          have := (uchuuFields_ok file _ _ hy').1
          have hk2 : q.1 ∈ PyDict.keys parts[k] := List.mem_map.2 ⟨q, hq', rfl⟩
          rw [this, List.mem_filter] at hk2
          exact hk2.1
    obtain ⟨v, c1, c2⟩ := hv q.1 hqf
    rw [c1] at h1
    rw [← Option.some.inj h1.2]; exact c2
  unfold uchuuLoader
  rw [hknown]
  simp only [Bool.false_eq_true, if_false, hp]
  match hfl : parts.flatten with
  | [] =>
    exfalso
    obtain ⟨f, hf⟩ := List.exists_mem_of_ne_nil _ hne
    obtain ⟨df, file, v, a1, -⟩ := hfile f hf
    obtain ⟨k, hk, hke⟩ := List.getElem_of_mem (hord f df a1)
    obtain ⟨y, hy, hy'⟩ := hget k df (by rw [List.getElem?_eq_getElem hk, hke])
    obtain ⟨w, hw⟩ := (uchuuFile_ok _ _ _ _ _ hy').2 f hf a1
    have : (f, w) ∈ parts.flatten := List.mem_flatten.2 ⟨y, List.mem_of_getElem? hy, hw⟩
    rw [hfl] at this; simp at this
  | p :: rest =>
    have hp0 : p.2.length = n := hin p (by rw [hfl]; simp)
    have hany : (p :: rest).any (fun q => decide (q.2.length ≠ p.2.length)) = false := by
      rw [Bool.eq_false_iff]
      intro hc
      rw [List.any_eq_true] at hc
      obtain ⟨q, hq, hq'⟩ := hc
      have := hin q (by rw [hfl]; exact hq)
      simp only [ne_eq, decide_eq_true_eq] at hq'
      omega
    refine ⟨p :: rest, ?_⟩
    simp only
    rw [hany]
    simp [hp0]

/-- Two data files. -/
def demoFiles : ℕ → Option (Name → Option (List ℚ))
  | 1 => some (fun f => if f = "Mvir" then some [5, 6] else none)
  | 2 => some (fun f => if f = "x" then some [1, 2] else if f = "y" then some [3] else none)
  | _ => none

example : uchuuLoader [("Mvir", 1), ("x", 2), ("y", 2)] [1, 2] demoFiles ["x", "Mvir"]
      = .ok ([("Mvir", [5, 6]), ("x", [1, 2])], 2) ∧
    uchuuLoader [("Mvir", 1), ("x", 2), ("y", 2)] [1, 2] demoFiles ["y", "Mvir"]
      = .error .valueError := by decide +kernel

end Verif.Load
