import Verif.Lemmas.FormatDisk

/-!
# A whole call of `format`
-/

namespace Verif.Format

open Verif.Sim (Err SnapMeta)
open Spec

variable {K : Type}

/-! ## Helpers -/

theorem prompt_true (ans : List String) : prompt ans = some true ↔
    ∃ pre post, ans = pre ++ "y" :: post ∧ "y" ∉ pre ∧ "n" ∉ pre := by
  induction ans with
  | nil => simp [prompt]
  | cons a ans ih =>
    unfold prompt
    by_cases hy : a = "y"
    · simp only [hy, if_true, true_iff]
      exact ⟨[], ans, rfl, by simp, by simp⟩
    · simp only [hy, if_false]
      by_cases hn : a = "n"
      · simp only [hn, if_true, Option.some.injEq, Bool.false_eq_true, false_iff]
        rintro ⟨pre, post, h1, h2, h3⟩
        cases pre with
        | nil => simp at h1
        | cons b pre =>
          simp only [List.cons_append, List.cons.injEq] at h1
          rw [← h1.1] at h3
          simp at h3
      · simp only [hn, if_false, ih]
        constructor
        · rintro ⟨pre, post, h1, h2, h3⟩
          refine ⟨a :: pre, post, by simp [h1], ?_, ?_⟩
          · simp only [List.mem_cons, not_or]; exact ⟨fun e => hy e.symm, h2⟩
          · simp only [List.mem_cons, not_or]; exact ⟨fun e => hn e.symm, h3⟩
        · rintro ⟨pre, post, h1, h2, h3⟩
          cases pre with
          | nil =>
            simp only [List.nil_append, List.cons.injEq] at h1
            exact absurd h1.1 hy
          | cons b pre =>
            simp only [List.cons_append, List.cons.injEq] at h1
            simp only [List.mem_cons, not_or] at h2 h3
            exact ⟨pre, post, h1.2, h2.2, h3.2⟩

theorem consents_iff (o : Opts) (ans : List String) : Consents o ans ↔
    (if o.clean ∧ o.cleanCheck then prompt ans else some true) = some true := by
  unfold Consents
  by_cases h : o.clean = true ∧ o.cleanCheck = true
  · simp only [h, and_self, if_true, true_imp_iff, prompt_true]
  · rw [if_neg h]
    constructor
    · intro _; rfl
    · intro _ h1 h2; exact absurd ⟨h1, h2⟩ h

theorem get?_all_none {α : Type} (d : PyDict ℕ α) : (∀ i, d.get? i = none) ↔ d = [] := by
  constructor
  · intro h
    cases d with
    | nil => rfl
    | cons p d =>
      obtain ⟨i, x⟩ := p
      have := h i
      simp [PyDict.get?] at this
  · rintro rfl; simp

theorem fresh_iff (d : Disk K) (o : Opts) : fresh d o = true ↔ NewFile o d := by
  unfold fresh NewFile groupOf
  cases d.file with
  | none => simp
  | some f =>
    simp only [Bool.or_eq_true, List.isEmpty_iff]
    rw [get?_all_none]

theorem otherOf_ok (cat : Cat K) (names : List Name) (other : Fields)
    (h : otherOf cat names = .ok other) (f : Name × List Sub) : f ∈ other ↔
      f ∈ merge cat.matter cat.dm ∧ ∃ s rest, f.2 = s :: rest ∧ s.name ∈ names := by
  unfold otherOf at h
  generalize merge cat.matter cat.dm = m at h ⊢
  induction m generalizing other with
  | nil =>
    simp only [List.foldr_nil, Except.ok.injEq] at h
    subst h
    simp
  | cons p m ih =>
    rw [List.foldr_cons] at h
    split at h
    · cases h
    · rename_i l hl
      have ih' := ih l hl
      cases hp : p.2 with
      | nil => simp only [hp] at h; cases h
      | cons s rest =>
        simp only [hp] at h
        by_cases hs : s.name ∈ names
        · simp only [hs, if_true, Except.ok.injEq] at h
          subst h
          rw [List.mem_cons, List.mem_cons, ih']
          constructor
          · rintro (rfl | ⟨h1, h2⟩)
            · exact ⟨Or.inl rfl, s, rest, hp, hs⟩
            · exact ⟨Or.inr h1, h2⟩
          · rintro ⟨rfl | h1, h2⟩
            · exact Or.inl rfl
            · exact Or.inr ⟨h1, h2⟩
        · simp only [hs, if_false, Except.ok.injEq] at h
          subst h
          rw [List.mem_cons, ih']
          constructor
          · rintro ⟨h1, h2⟩; exact ⟨Or.inr h1, h2⟩
          · rintro ⟨rfl | h1, h2⟩
            · obtain ⟨s', rest', e, hs'⟩ := h2
              rw [hp] at e
              simp only [List.cons.injEq] at e
              rw [← e.1] at hs'
              exact absurd hs' hs
            · exact ⟨h1, h2⟩

theorem firstGroup_mem (groups : PyDict ℕ (Group K)) (hnd : groups.keys.Nodup) (g : Group K)
    (h : firstGroup groups = some g) : ∃ i, groups.get? i = some g := by
  have getmem : ∀ (l : PyDict ℕ (Group K)), l.keys.Nodup → ∀ q ∈ l, l.get? q.1 = some q.2 := by
    intro l
    induction l with
    | nil => intro _ q hq; cases hq
    | cons p l ih =>
      intro hl q hq
      obtain ⟨a, x⟩ := p
      simp only [PyDict.keys, List.map_cons, List.nodup_cons] at hl
      rw [PyDict.get?_cons]
      rcases List.mem_cons.1 hq with rfl | hq
      · simp
      · have : a ≠ q.1 := by
          intro e
          exact hl.1 (List.mem_map.2 ⟨q, hq, e.symm⟩)
        rw [if_neg this]
        exact ih hl.2 q hq
  have foldmem : ∀ (l : PyDict ℕ (Group K)) (b : ℕ × Group K),
      l.foldl (fun (best : ℕ × Group K) q =>
        if groupName q.1 < groupName best.1 then q else best) b ∈ b :: l := by
    intro l
    induction l with
    | nil => intro b; simp
    | cons q l ih =>
      intro b
      rw [List.foldl_cons]
      have := ih (if groupName q.1 < groupName b.1 then q else b)
      rcases List.mem_cons.1 this with h | h
      · rw [h]
        split <;> simp
      · exact List.mem_cons_of_mem _ (List.mem_cons_of_mem _ h)
  cases groups with
  | nil => cases h
  | cons p rest =>
    obtain ⟨a, x⟩ := p
    simp only [firstGroup, Option.some.injEq] at h
    have := foldmem rest (a, x)
    have hg := getmem _ hnd _ this
    rw [h] at hg
    exact ⟨_, hg⟩

/-! ## Sorting the metadata -/

theorem insertByIndex_perm (m : SnapMeta K) (l : List (SnapMeta K)) :
    (insertByIndex m l).Perm (m :: l) := by
  induction l with
  | nil => exact List.Perm.refl _
  | cons x l ih =>
    unfold insertByIndex
    split
    · exact List.Perm.refl _
    · exact (List.Perm.cons x ih).trans (List.Perm.swap m x l)

theorem sortByIndex_perm (l : List (SnapMeta K)) : (sortByIndex l).Perm l := by
  induction l with
  | nil => exact List.Perm.refl _
  | cons m l ih => exact (insertByIndex_perm m _).trans (List.Perm.cons m ih)

theorem insertByIndex_sorted (m : SnapMeta K) (l : List (SnapMeta K))
    (hs : l.Pairwise (fun a b => a.index < b.index)) (hm : m.index ∉ l.map (·.index)) :
    (insertByIndex m l).Pairwise (fun a b => a.index < b.index) := by
  induction l with
  | nil => simp [insertByIndex]
  | cons x l ih =>
    rw [List.pairwise_cons] at hs
    simp only [List.map_cons, List.mem_cons, not_or] at hm
    unfold insertByIndex
    split
    · rename_i h
      rw [List.pairwise_cons, List.pairwise_cons]
      refine ⟨?_, hs⟩
      intro y hy
      rcases List.mem_cons.1 hy with rfl | hy
      · exact h
      · exact lt_trans h (hs.1 y hy)
    · rename_i h
      rw [List.pairwise_cons]
      refine ⟨?_, ih hs.2 hm.2⟩
      intro y hy
      rcases List.mem_cons.1 ((insertByIndex_perm m l).mem_iff.1 hy) with hy | hy
      · rw [hy]; have := hm.1; omega
      · exact hs.1 y hy

theorem sortByIndex_sorted (l : List (SnapMeta K)) (hnd : (l.map (·.index)).Nodup) :
    (sortByIndex l).Pairwise (fun a b => a.index < b.index) := by
  induction l with
  | nil => exact List.Pairwise.nil
  | cons m l ih =>
    rw [List.map_cons, List.nodup_cons] at hnd
    refine insertByIndex_sorted m _ (ih hnd.2) ?_
    intro h
    exact hnd.1 (((sortByIndex_perm l).map _).mem_iff.1 h)

theorem nodup_of_sorted (l : List (SnapMeta K)) (h : l.Pairwise (fun a b => a.index < b.index)) :
    (l.map (·.index)).Nodup := by
  unfold List.Nodup
  rw [List.pairwise_map]
  exact h.imp (fun h e => by omega)

/-! ## The plan of a call -/

/-- What a call that goes ahead does: a few writes to the file's metadata, then the loop over the
snapshots in `todo`. -/
inductive Plan [LinearOrder K] (cat : Cat K) (o : Opts) (d : Disk K) (es : List (Eff K))
    (r : Except Err Unit) : Prop
  | new (other : Fields) (hn : NewFile o d)
      (ho : other = if o.basicOnly then [] else merge cat.dm cat.matter)
      (hes : es = [.truncate, .setNum cat.numberSnaps, .setMetas cat.metas] ++
        (formatLoop cat other o.clean
          (applyAll d [.truncate, .setNum cat.numberSnaps, .setMetas cat.metas]) cat.snaps).1)
      (hr : r = (formatLoop cat other o.clean
          (applyAll d [.truncate, .setNum cat.numberSnaps, .setMetas cat.metas]) cat.snaps).2)
  | add (other : Fields) (file : File K) (g : Group K) (old : List (SnapMeta K)) (todo : List ℕ)
      (all : List (SnapMeta K)) (hn : ¬ NewFile o d) (hf : d.file = some file)
      (hg : firstGroup file.groups = some g) (ho : otherOf cat g.names = .ok other)
      (hold : file.metas = some old)
      (htodo : ∀ i, i ∈ todo ↔ i ∈ cat.snaps ∧ (o.overwrite = true ∨ groupOf d i = none))
      (hnd : cat.snaps.Nodup → todo.Nodup)
      (hall : all = sortByIndex (old.filter (fun m => decide (m.index ∉ todo)) ++
        cat.metas.filter (fun m => decide (m.index ∈ todo))))
      (hes : es = [.setMetas all, .setNum all.length] ++
        (formatLoop cat other o.clean (applyAll d [.setMetas all, .setNum all.length]) todo).1)
      (hr : r = (formatLoop cat other o.clean
        (applyAll d [.setMetas all, .setNum all.length]) todo).2)

theorem format_plan [LinearOrder K] (cat : Cat K) (o : Opts) (ans : List String) (d : Disk K)
    (es : List (Eff K)) (r : Except Err Unit) (h : format cat o ans d = some (es, r)) :
    (es = [] ∧ (r = .ok () → ¬ Consents o ans)) ∨ (Consents o ans ∧ Plan cat o d es r) := by
  unfold format at h
  rw [consents_iff]
  split at h
  · cases h
  · rename_i hc
    simp only [Option.some.injEq, Prod.mk.injEq] at h
    left
    exact ⟨h.1.symm, fun _ => by rw [hc]; simp⟩
  · rename_i hc
    by_cases hfr : fresh d o = true
    · simp only [hfr, if_true] at h
      refine Or.inr ⟨hc, Plan.new (if o.basicOnly then [] else merge cat.dm cat.matter)
        ((fresh_iff d o).1 hfr) rfl ?_ ?_⟩
      · by_cases hs : cat.snaps = []
        · simp only [hs, if_true, Option.some.injEq, Prod.mk.injEq] at h
          rw [hs, ← h.1]; rfl
        · simp only [hs, if_false, Option.some.injEq, Prod.mk.injEq] at h
          exact h.1.symm
      · by_cases hs : cat.snaps = []
        · simp only [hs, if_true, Option.some.injEq, Prod.mk.injEq] at h
          rw [hs, ← h.2]; rfl
        · simp only [hs, if_false, Option.some.injEq, Prod.mk.injEq] at h
          exact h.2.symm
    · simp only [hfr, Bool.false_eq_true, if_false] at h
      split at h
      · simp only [Option.some.injEq, Prod.mk.injEq] at h
        exact Or.inl ⟨h.1.symm, by rw [← h.2]; simp⟩
      · rename_i file hfile
        split at h
        · simp only [Option.some.injEq, Prod.mk.injEq] at h
          exact Or.inl ⟨h.1.symm, by rw [← h.2]; simp⟩
        · rename_i g hg
          split at h
          · simp only [Option.some.injEq, Prod.mk.injEq] at h
            exact Or.inl ⟨h.1.symm, by rw [← h.2]; simp⟩
          · rename_i other ho
            split at h
            · rename_i old num hold hnum
              right
              have hmem : ∀ i, i ∈ (if o.overwrite = true then
                  cat.snaps.filter (fun i => !file.groups.has i) ++
                    cat.snaps.filter (fun i => file.groups.has i)
                  else cat.snaps.filter (fun i => !file.groups.has i)) ↔
                  i ∈ cat.snaps ∧ (o.overwrite = true ∨ groupOf d i = none) := by
                intro i
                have hgr : groupOf d i = none ↔ file.groups.has i = false := by
                  unfold groupOf PyDict.has
                  rw [hfile]
                  simp
                rw [hgr]
                by_cases hov : o.overwrite = true
                · simp only [hov, if_true, List.mem_append, List.mem_filter, true_or, and_true]
                  cases file.groups.has i <;> simp
                · simp only [hov, Bool.false_eq_true, if_false, List.mem_filter, false_or]
                  cases file.groups.has i <;> simp
              have hnd : cat.snaps.Nodup → (if o.overwrite = true then
                  cat.snaps.filter (fun i => !file.groups.has i) ++
                    cat.snaps.filter (fun i => file.groups.has i)
                  else cat.snaps.filter (fun i => !file.groups.has i)).Nodup := by
                intro hnd
                split
                · refine List.Nodup.append (hnd.filter _) (hnd.filter _) ?_
                  intro i h1 h2
                  simp only [List.mem_filter] at h1 h2
                  rw [h2.2] at h1
                  simp at h1
                · exact hnd.filter _
              generalize (if o.overwrite = true then
                  cat.snaps.filter (fun i => !file.groups.has i) ++
                    cat.snaps.filter (fun i => file.groups.has i)
                  else cat.snaps.filter (fun i => !file.groups.has i)) = todo at h hmem hnd
              refine ⟨hc, Plan.add other file g old todo _ (fun hn => hfr ((fresh_iff d o).2 hn))
                hfile hg ho hold hmem hnd rfl ?_ ?_⟩
              · by_cases ht : todo = []
                · simp only [ht, if_true, Option.some.injEq, Prod.mk.injEq] at h ⊢
                  rw [← h.1]; simp [formatLoop]
                · simp only [ht, if_false, Option.some.injEq, Prod.mk.injEq] at h
                  exact h.1.symm
              · by_cases ht : todo = []
                · simp only [ht, if_true, Option.some.injEq, Prod.mk.injEq] at h ⊢
                  rw [← h.2]; simp [formatLoop]
                · simp only [ht, if_false, Option.some.injEq, Prod.mk.injEq] at h
                  exact h.2.symm
            · simp only [Option.some.injEq, Prod.mk.injEq] at h
              exact Or.inl ⟨h.1.symm, by rw [← h.2]; simp⟩

/-! ## The first writes -/

theorem start_new (d : Disk K) (n : ℕ) (l : List (SnapMeta K)) :
    applyAll d [.truncate, .setNum n, .setMetas l] =
      { file := some { metas := some l, num := some n, groups := [] }, raw := d.raw } := rfl

theorem start_add (d : Disk K) (file : File K) (h : d.file = some file) (n : ℕ)
    (l : List (SnapMeta K)) : applyAll d [.setMetas l, .setNum n] =
      { file := some { metas := some l, num := some n, groups := file.groups }, raw := d.raw } := by
  obtain ⟨f, r⟩ := d
  simp only at h
  subst h
  rfl

theorem prefix_three {α : Type} (P : List α) (a b c : α) (h : P <+: [a, b, c]) :
    P = [] ∨ P = [a] ∨ P = [a, b] ∨ P = [a, b, c] := by
  obtain ⟨t, ht⟩ := h
  match P, ht with
  | [], _ => exact Or.inl rfl
  | [x], ht => simp at ht; simp [ht.1]
  | [x, y], ht => simp at ht; simp [ht.1, ht.2.1]
  | [x, y, z], ht => simp at ht; simp [ht.1, ht.2.1, ht.2.2.1]
  | x :: y :: z :: w :: l, ht => simp at ht

theorem prefix_two {α : Type} (P : List α) (a b : α) (h : P <+: [a, b]) :
    P = [] ∨ P = [a] ∨ P = [a, b] := by
  obtain ⟨t, ht⟩ := h
  match P, ht with
  | [], _ => exact Or.inl rfl
  | [x], ht => simp at ht; simp [ht.1]
  | [x, y], ht => simp at ht; simp [ht.1, ht.2.1]
  | x :: y :: z :: l, ht => simp at ht

/-- The effects of a call keep HDF5 names unique. -/
theorem unique_onGroup (d : Disk K) (hd : Unique d) (i : ℕ) (f : Group K → Group K) :
    Unique (onGroup d i f) := by
  obtain ⟨file, raw⟩ := d
  cases file with
  | none => exact hd
  | some file =>
    unfold onGroup
    simp only
    cases hg : file.groups.get? i with
    | none => exact hd
    | some g =>
      intro f' hf'
      simp only [Option.some.injEq] at hf'
      subst hf'
      exact PyDict.keys_set_nodup _ _ _ (hd file rfl)

theorem unique_apply (d : Disk K) (hd : Unique d) (e : Eff K) : Unique (apply d e) := by
  cases e with
  | truncate =>
    intro f hf
    simp only [apply, Option.some.injEq] at hf
    subst hf
    exact List.Pairwise.nil
  | setMetas l =>
    intro f hf
    simp only [apply, Option.map_eq_some_iff] at hf
    obtain ⟨f0, h0, rfl⟩ := hf
    exact hd f0 h0
  | setNum l =>
    intro f hf
    simp only [apply, Option.map_eq_some_iff] at hf
    obtain ⟨f0, h0, rfl⟩ := hf
    exact hd f0 h0
  | delGroup i =>
    intro f hf
    simp only [apply, Option.map_eq_some_iff] at hf
    obtain ⟨f0, h0, rfl⟩ := hf
    exact PyDict.keys_erase_nodup _ _ (hd f0 h0)
  | newGroup i =>
    intro f hf
    simp only [apply, Option.map_eq_some_iff] at hf
    obtain ⟨f0, h0, rfl⟩ := hf
    exact PyDict.keys_set_nodup _ _ _ (hd f0 h0)
  | newCuts i t => exact unique_onGroup d hd i _
  | newData i p c => exact unique_onGroup d hd i _
  | setUnits i p u => exact unique_onGroup d hd i _
  | setHdep i p e => exact unique_onGroup d hd i _
  | setInfo i l => exact unique_onGroup d hd i _
  | rmRaw i => exact hd

theorem unique_applyAll (es : List (Eff K)) : ∀ d : Disk K, Unique d → Unique (applyAll d es) := by
  induction es with
  | nil => intro d hd; exact hd
  | cons e es ih => intro d hd; exact ih _ (unique_apply d hd e)

variable [LinearOrder K]

theorem Plan.uses {cat : Cat K} {o : Opts} {d : Disk K} {es : List (Eff K)} {r : Except Err Unit}
    (hd : Unique d) (h : Plan cat o d es r) : ∃ other, Uses cat o d other ∧
      ((NewFile o d ∧ es = [.truncate, .setNum cat.numberSnaps, .setMetas cat.metas] ++
        (formatLoop cat other o.clean
          (applyAll d [.truncate, .setNum cat.numberSnaps, .setMetas cat.metas]) cat.snaps).1 ∧
        r = (formatLoop cat other o.clean
          (applyAll d [.truncate, .setNum cat.numberSnaps, .setMetas cat.metas]) cat.snaps).2) ∨
      (¬ NewFile o d ∧ ∃ todo all file old, d.file = some file ∧ file.metas = some old ∧
        (∀ i, i ∈ todo ↔ Formats cat o d i) ∧ (cat.snaps.Nodup → todo.Nodup) ∧
        all = sortByIndex (old.filter (fun m => decide (m.index ∉ todo)) ++
          cat.metas.filter (fun m => decide (m.index ∈ todo))) ∧
        es = [.setMetas all, .setNum all.length] ++
        (formatLoop cat other o.clean (applyAll d [.setMetas all, .setNum all.length]) todo).1 ∧
        r = (formatLoop cat other o.clean
          (applyAll d [.setMetas all, .setNum all.length]) todo).2)) := by
  cases h with
  | new other hn ho hes hr => exact ⟨other, Or.inl ⟨hn, ho⟩, Or.inl ⟨hn, hes, hr⟩⟩
  | add other file g old todo all hn hf hg ho hold htodo hnd hall hes hr =>
    obtain ⟨i, hi⟩ := firstGroup_mem file.groups (hd file hf) g hg
    refine ⟨other, Or.inr ⟨hn, i, g, ?_, otherOf_ok cat g.names other ho⟩,
      Or.inr ⟨hn, todo, all, file, old, hf, hold, ?_, hnd, hall, hes, hr⟩⟩
    · unfold groupOf; rw [hf]; exact hi
    · intro j
      rw [htodo]
      unfold Formats
      simp [hn]

omit [LinearOrder K] in
theorem sorted_all (old new : List (SnapMeta K)) (todo : List ℕ)
    (h1 : old.Pairwise (fun a b => a.index < b.index))
    (h2 : new.Pairwise (fun a b => a.index < b.index)) :
    (sortByIndex (old.filter (fun m => decide (m.index ∉ todo)) ++
      new.filter (fun m => decide (m.index ∈ todo)))).Pairwise
        (fun a b => a.index < b.index) := by
  refine sortByIndex_sorted _ ?_
  rw [List.map_append]
  refine List.Nodup.append (nodup_of_sorted _ (h1.filter _)) (nodup_of_sorted _ (h2.filter _)) ?_
  intro i ha hb
  obtain ⟨a, ha1, ha2⟩ := List.mem_map.1 ha
  obtain ⟨b, hb1, hb2⟩ := List.mem_map.1 hb
  simp only [List.mem_filter, decide_eq_true_eq] at ha1 hb1
  rw [ha2] at ha1
  rw [hb2] at hb1
  exact ha1.2 hb1.2

/-- What a successful call leaves on the disk. -/
theorem format_success (cat : Cat K) (hc : Sound cat) (o : Opts) (ans : List String) (d : Disk K)
    (hd : Unique d) (es : List (Eff K)) (h : format cat o ans d = some (es, .ok ()))
    (hcons : Consents o ans) :
    ∃ other, Uses cat o d other ∧
      (∀ i, Formats cat o d i → ∃ r g, d.raw.get? i = some r ∧
        groupOf (applyAll d es) i = some g ∧ Complete cat other r i g ∧
        (o.clean = false → (applyAll d es).raw.get? i = some r) ∧
        (o.clean = true → (applyAll d es).raw.get? i = none)) ∧
      (∀ i, ¬ Formats cat o d i → (applyAll d es).raw.get? i = d.raw.get? i ∧
        (NewFile o d → groupOf (applyAll d es) i = none) ∧
        (¬ NewFile o d → groupOf (applyAll d es) i = groupOf d i)) ∧
      (NewFile o d → metasOf (applyAll d es) = some cat.metas ∧
        numOf (applyAll d es) = some cat.numberSnaps) ∧
      (¬ NewFile o d → ∃ old l, metasOf d = some old ∧ metasOf (applyAll d es) = some l ∧
        numOf (applyAll d es) = some l.length ∧
        (old.Pairwise (fun a b => a.index < b.index) →
          l.Pairwise (fun a b => a.index < b.index)) ∧
        ∀ m, m ∈ l ↔ (m ∈ old ∧ ¬ Formats cat o d m.index) ∨
          (m ∈ cat.metas ∧ Formats cat o d m.index)) := by
  rcases format_plan cat o ans d es _ h with ⟨_, h2⟩ | ⟨_, hp⟩
  · exact absurd hcons (h2 rfl)
  · obtain ⟨other, hu, hcase⟩ := hp.uses hd
    refine ⟨other, hu, ?_⟩
    rcases hcase with ⟨hn, hes, hr⟩ | ⟨hn, todo, all, file, old, hf, hold, htodo, hnd, hall, hes, hr⟩
    · have hst : (applyAll d [.truncate, .setNum cat.numberSnaps, .setMetas cat.metas]).file.isSome :=
        by rw [start_new]; rfl
      have hform : ∀ i, Formats cat o d i ↔ i ∈ cat.snaps := by
        intro i; unfold Formats; simp [hn]
      have done := formatLoop_done cat hc.argsort other o.clean cat.snaps hc.snaps _ hst hr.symm
      have inv := formatLoop_prefix cat hc.argsort other o.clean cat.snaps hc.snaps _ hst _
        List.prefix_rfl
      have happ : applyAll d es = applyAll
          (applyAll d [.truncate, .setNum cat.numberSnaps, .setMetas cat.metas])
          (formatLoop cat other o.clean
            (applyAll d [.truncate, .setNum cat.numberSnaps, .setMetas cat.metas]) cat.snaps).1 := by
        conv_lhs => rw [hes]
        rw [applyAll_append]
      rw [happ]
      refine ⟨?_, ?_, ?_, fun hn' => absurd hn hn'⟩
      · intro i hi
        obtain ⟨r, g, h1, h2⟩ := done i ((hform i).1 hi)
        exact ⟨r, g, by rw [start_new] at h1; exact h1, h2⟩
      · intro i hi
        rw [hform] at hi
        refine ⟨by rw [inv.raw i hi, start_new], fun _ => ?_, fun hn' => absurd hn hn'⟩
        rw [inv.groups i hi, start_new]
        rfl
      · intro _
        rw [inv.metas, inv.num, start_new]
        exact ⟨rfl, rfl⟩
    · have hst : (applyAll d [.setMetas all, .setNum all.length]).file.isSome := by
        rw [start_add d file hf]; rfl
      have done := formatLoop_done cat hc.argsort other o.clean todo (hnd hc.snaps) _ hst hr.symm
      have inv := formatLoop_prefix cat hc.argsort other o.clean todo (hnd hc.snaps) _ hst _
        List.prefix_rfl
      have happ : applyAll d es = applyAll (applyAll d [.setMetas all, .setNum all.length])
          (formatLoop cat other o.clean
            (applyAll d [.setMetas all, .setNum all.length]) todo).1 := by
        conv_lhs => rw [hes]
        rw [applyAll_append]
      rw [happ]
      refine ⟨?_, ?_, fun hn' => absurd hn' hn, ?_⟩
      · intro i hi
        obtain ⟨r, g, h1, h2⟩ := done i ((htodo i).2 hi)
        exact ⟨r, g, by rw [start_add d file hf] at h1; exact h1, h2⟩
      · intro i hi
        rw [← htodo] at hi
        refine ⟨by rw [inv.raw i hi, start_add d file hf], fun hn' => absurd hn' hn, fun _ => ?_⟩
        rw [inv.groups i hi, start_add d file hf]
        unfold groupOf
        rw [hf]
      · intro _
        refine ⟨old, all, by simp [metasOf, hf, hold], ?_, ?_, ?_, ?_⟩
        · rw [inv.metas, start_add d file hf]; rfl
        · rw [inv.num, start_add d file hf]; rfl
        · intro hs; rw [hall]; exact sorted_all old cat.metas todo hs hc.sorted
        · intro m
          rw [hall, (sortByIndex_perm _).mem_iff, List.mem_append, List.mem_filter, List.mem_filter]
          simp only [decide_eq_true_eq, htodo]

/-- What any prefix of a call leaves on the disk. -/
theorem format_prefix (cat : Cat K) (hc : Sound cat) (o : Opts) (ans : List String) (d : Disk K)
    (hd : Unique d) (es : List (Eff K)) (r : Except Err Unit)
    (h : format cat o ans d = some (es, r)) (P : List (Eff K)) (hP : P <+: es) :
    ∃ other, (P = [] ∨ (Consents o ans ∧ Uses cat o d other)) ∧
      (∀ i x, d.raw.get? i = some x → (applyAll d P).raw.get? i = some x ∨
        (o.clean = true ∧ Formats cat o d i ∧ (applyAll d P).raw.get? i = none ∧
          ∃ g, groupOf (applyAll d P) i = some g ∧ Complete cat other x i g)) ∧
      (∀ i, ¬ Formats cat o d i ∨ d.raw.get? i = none →
        (applyAll d P).raw.get? i = d.raw.get? i ∧
        (groupOf (applyAll d P) i = groupOf d i ∨
          (NewFile o d ∧ groupOf (applyAll d P) i = none))) := by
  rcases format_plan cat o ans d es _ h with ⟨h1, _⟩ | ⟨hcons, hp⟩
  · subst h1
    have : P = [] := List.prefix_nil.1 hP
    subst this
    exact ⟨[], Or.inl rfl, fun i x hx => Or.inl hx, fun i _ => ⟨rfl, Or.inl rfl⟩⟩
  · obtain ⟨other, hu, hcase⟩ := hp.uses hd
    refine ⟨other, Or.inr ⟨hcons, hu⟩, ?_⟩
    rcases hcase with ⟨hn, hes, hr⟩ | ⟨hn, todo, all, file, old, hf, hold, htodo, hnd, hall, hes, hr⟩
    · have hst : (applyAll d [.truncate, .setNum cat.numberSnaps, .setMetas cat.metas]).file.isSome :=
        by rw [start_new]; rfl
      have hform : ∀ i, Formats cat o d i ↔ i ∈ cat.snaps := by
        intro i; unfold Formats; simp [hn]
      rw [hes] at hP
      rcases prefix_append_cases P _ _ hP with h3 | ⟨Q, rfl, hQ⟩
      · rcases prefix_three P _ _ _ h3 with rfl | rfl | rfl | rfl
        · exact ⟨fun i x hx => Or.inl hx, fun i _ => ⟨rfl, Or.inl rfl⟩⟩
        · exact ⟨fun i x hx => Or.inl hx, fun i _ => ⟨rfl, Or.inr ⟨hn, rfl⟩⟩⟩
        · exact ⟨fun i x hx => Or.inl hx, fun i _ => ⟨rfl, Or.inr ⟨hn, rfl⟩⟩⟩
        · exact ⟨fun i x hx => Or.inl hx, fun i _ => ⟨rfl, Or.inr ⟨hn, rfl⟩⟩⟩
      · have inv := formatLoop_prefix cat hc.argsort other o.clean cat.snaps hc.snaps _ hst Q hQ
        rw [applyAll_append]
        generalize hS : applyAll d [.truncate, .setNum cat.numberSnaps, .setMetas cat.metas] = S
          at inv
        have hraw : S.raw = d.raw := by rw [← hS, start_new]
        have hgr : ∀ i, groupOf S i = none := by intro i; rw [← hS, start_new]; rfl
        refine ⟨?_, ?_⟩
        · intro i x hx
          by_cases hi : i ∈ cat.snaps
          · rcases inv.safe i hi x (by rw [hraw]; exact hx) with h1 | ⟨h1, h2, h3⟩
            · exact Or.inl h1
            · exact Or.inr ⟨h1, (hform i).2 hi, h2, h3⟩
          · left; rw [inv.raw i hi, hraw]; exact hx
        · intro i hi
          rw [hform] at hi
          rcases hi with hi | hi
          · exact ⟨by rw [inv.raw i hi, hraw], Or.inr ⟨hn, by rw [inv.groups i hi, hgr]⟩⟩
          · obtain ⟨m1, m2⟩ := inv.missing i (by rw [hraw]; exact hi)
            exact ⟨by rw [m2, hi], Or.inr ⟨hn, by rw [m1, hgr]⟩⟩
    · have hst : (applyAll d [.setMetas all, .setNum all.length]).file.isSome := by
        rw [start_add d file hf]; rfl
      rw [hes] at hP
      have hgr : ∀ i, groupOf (applyAll d [.setMetas all, .setNum all.length]) i = groupOf d i := by
        intro i; rw [start_add d file hf]; unfold groupOf; rw [hf]
      rcases prefix_append_cases P _ _ hP with h3 | ⟨Q, rfl, hQ⟩
      · rcases prefix_two P _ _ h3 with rfl | rfl | rfl
        · exact ⟨fun i x hx => Or.inl hx, fun i _ => ⟨rfl, Or.inl rfl⟩⟩
        · refine ⟨fun i x hx => Or.inl hx, fun i _ => ⟨rfl, Or.inl ?_⟩⟩
          simp only [applyAll, List.foldl_cons, List.foldl_nil, apply, groupOf, hf, Option.map_some]
        · exact ⟨fun i x hx => Or.inl hx, fun i _ => ⟨rfl, Or.inl (hgr i)⟩⟩
      · have inv := formatLoop_prefix cat hc.argsort other o.clean todo (hnd hc.snaps) _ hst Q hQ
        rw [applyAll_append]
        generalize hS : applyAll d [.setMetas all, .setNum all.length] = S at inv hgr
        have hraw : S.raw = d.raw := by rw [← hS, start_add d file hf]
        refine ⟨?_, ?_⟩
        · intro i x hx
          by_cases hi : i ∈ todo
          · rcases inv.safe i hi x (by rw [hraw]; exact hx) with h1 | ⟨h1, h2, h3⟩
            · exact Or.inl h1
            · exact Or.inr ⟨h1, (htodo i).1 hi, h2, h3⟩
          · left; rw [inv.raw i hi, hraw]; exact hx
        · intro i hi
          rw [← htodo] at hi
          rcases hi with hi | hi
          · exact ⟨by rw [inv.raw i hi, hraw], Or.inl (by rw [inv.groups i hi, hgr])⟩
          · obtain ⟨m1, m2⟩ := inv.missing i (by rw [hraw]; exact hi)
            exact ⟨by rw [m2, hi], Or.inl (by rw [m1, hgr])⟩

/-- Any prefix of a call keeps the metadata in order. -/
theorem format_listed (cat : Cat K) (hc : Sound cat) (o : Opts) (ans : List String) (d : Disk K)
    (hd : Unique d) (hL : Listed d) (es : List (Eff K)) (r : Except Err Unit)
    (h : format cat o ans d = some (es, r)) (P : List (Eff K)) (hP : P <+: es) :
    Listed (applyAll d P) := by
  rcases format_plan cat o ans d es _ h with ⟨h1, _⟩ | ⟨hcons, hp⟩
  · subst h1
    have : P = [] := List.prefix_nil.1 hP
    subst this
    exact hL
  · obtain ⟨other, hu, hcase⟩ := hp.uses hd
    rcases hcase with ⟨hn, hes, hr⟩ | ⟨hn, todo, all, file, old, hf, hold, htodo, hnd, hall, hes, hr⟩
    · have hst : (applyAll d [.truncate, .setNum cat.numberSnaps, .setMetas cat.metas]).file.isSome :=
        by rw [start_new]; rfl
      rw [hes] at hP
      rcases prefix_append_cases P _ _ hP with h3 | ⟨Q, rfl, hQ⟩
      · rcases prefix_three P _ _ _ h3 with rfl | rfl | rfl | rfl
        · exact hL
        · rintro ⟨i, hi⟩; exact absurd rfl hi
        · rintro ⟨i, hi⟩; exact absurd rfl hi
        · rintro ⟨i, hi⟩; exact absurd rfl hi
      · have inv := formatLoop_prefix cat hc.argsort other o.clean cat.snaps hc.snaps _ hst Q hQ
        rw [applyAll_append]
        rintro -
        refine ⟨cat.metas, by rw [inv.metas, start_new]; rfl, hc.sorted, ?_⟩
        intro i hi
        by_cases his : i ∈ cat.snaps
        · exact hc.listed i his
        · rw [inv.groups i his, start_new] at hi
          exact absurd rfl hi
    · have hst : (applyAll d [.setMetas all, .setNum all.length]).file.isSome := by
        rw [start_add d file hf]; rfl
      rw [hes] at hP
      have hex : ∃ i, groupOf d i ≠ none := by
        by_contra hne
        refine hn (Or.inr ?_)
        intro i
        by_contra hi
        exact hne ⟨i, hi⟩
      obtain ⟨l, hl1, hl2, hl3⟩ := hL hex
      have hlo : l = old := by
        simp only [metasOf, hf, Option.bind_some, hold, Option.some.injEq] at hl1
        exact hl1.symm
      subst hlo
      have hsort : all.Pairwise (fun a b => a.index < b.index) := by
        rw [hall]; exact sorted_all l cat.metas todo hl2 hc.sorted
      have hidx : ∀ i, i ∈ todo ∨ groupOf d i ≠ none → i ∈ all.map (·.index) := by
        intro i hi
        rw [hall, ((sortByIndex_perm _).map _).mem_iff, List.map_append, List.mem_append]
        by_cases hit : i ∈ todo
        · right
          obtain ⟨m, hm1, hm2⟩ := List.mem_map.1 (hc.listed i ((htodo i).1 hit).1)
          exact List.mem_map.2 ⟨m, List.mem_filter.2 ⟨hm1, by simp [hm2, hit]⟩, hm2⟩
        · left
          obtain ⟨m, hm1, hm2⟩ := List.mem_map.1 (hl3 i (by
            rcases hi with h | h
            · exact absurd h hit
            · exact h))
          exact List.mem_map.2 ⟨m, List.mem_filter.2 ⟨hm1, by simp [hm2, hit]⟩, hm2⟩
      rcases prefix_append_cases P _ _ hP with h3 | ⟨Q, rfl, hQ⟩
      · rcases prefix_two P _ _ h3 with rfl | rfl | rfl
        · exact hL
        · rintro -
          refine ⟨all, by simp [applyAll, apply, metasOf, hf], hsort, ?_⟩
          intro i hi
          refine hidx i (Or.inr ?_)
          simpa [applyAll, apply, groupOf, hf] using hi
        · rintro -
          refine ⟨all, by simp [applyAll, apply, metasOf, hf], hsort, ?_⟩
          intro i hi
          refine hidx i (Or.inr ?_)
          simpa [applyAll, apply, groupOf, hf] using hi
      · have inv := formatLoop_prefix cat hc.argsort other o.clean todo (hnd hc.snaps) _ hst Q hQ
        rw [applyAll_append]
        rintro -
        refine ⟨all, by rw [inv.metas, start_add d file hf]; rfl, hsort, ?_⟩
        intro i hi
        by_cases his : i ∈ todo
        · exact hidx i (Or.inl his)
        · rw [inv.groups i his] at hi
          refine hidx i (Or.inr ?_)
          rw [start_add d file hf] at hi
          simpa [groupOf, hf] using hi

end Verif.Format
