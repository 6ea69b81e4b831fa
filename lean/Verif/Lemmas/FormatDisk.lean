import Verif.Lemmas.FormatOne

/-!
# Formatting: effects on the disk, and every prefix of them
-/

namespace Verif.Format

open Verif.Sim (Err SnapMeta pick)
open Spec

variable {K : Type}

/-! ## Effects on one group -/

/-- The effects that concern snapshot `i`, without the deletion of its raw data. -/
inductive Eff.At (i : ℕ) : Eff K → Prop
  | del : Eff.At i (.delGroup i)
  | new : Eff.At i (.newGroup i)
  | cuts (t) : Eff.At i (.newCuts i t)
  | data (p c) : Eff.At i (.newData i p c)
  | units (p u) : Eff.At i (.setUnits i p u)
  | hdep (p e) : Eff.At i (.setHdep i p e)
  | info (l) : Eff.At i (.setInfo i l)

/-- Their effect on the group. -/
def gapply (og : Option (Group K)) : Eff K → Option (Group K)
  | .delGroup _ => none
  | .newGroup _ => some {}
  | .newCuts _ t => og.map (fun g => { g with cuts := some t })
  | .newData _ p c => og.map (fun g => { g with data := g.data.set p { data := c } })
  | .setUnits _ p u => og.map (fun g =>
      match g.data.get? p with
      | none => g
      | some x => { g with data := g.data.set p { x with units := some u } })
  | .setHdep _ p e => og.map (fun g =>
      match g.data.get? p with
      | none => g
      | some x => { g with data := g.data.set p { x with hdep := some e } })
  | .setInfo _ l => og.map (fun g => { g with info := some l })
  | _ => og

/-- What an effect on snapshot `i` leaves alone. -/
structure Frame (i : ℕ) (d d' : Disk K) : Prop where
  file : d'.file.isSome = d.file.isSome
  metas : metasOf d' = metasOf d
  num : numOf d' = numOf d
  groups : ∀ j, j ≠ i → groupOf d' j = groupOf d j
  raw : ∀ j, j ≠ i → d'.raw.get? j = d.raw.get? j

theorem Frame.refl (i : ℕ) (d : Disk K) : Frame i d d := ⟨rfl, rfl, rfl, fun _ _ => rfl, fun _ _ => rfl⟩

theorem Frame.trans {i : ℕ} {a b c : Disk K} (h : Frame i a b) (h' : Frame i b c) : Frame i a c :=
  ⟨h'.file.trans h.file, h'.metas.trans h.metas, h'.num.trans h.num,
    fun j hj => (h'.groups j hj).trans (h.groups j hj),
    fun j hj => (h'.raw j hj).trans (h.raw j hj)⟩

theorem onGroup_frame (d : Disk K) (i : ℕ) (f : Group K → Group K) :
    Frame i d (onGroup d i f) ∧ (onGroup d i f).raw = d.raw ∧
      groupOf (onGroup d i f) i = (groupOf d i).map f := by
  obtain ⟨file, raw⟩ := d
  cases file with
  | none => exact ⟨Frame.refl i _, rfl, rfl⟩
  | some file =>
    unfold onGroup
    simp only
    cases hg : file.groups.get? i with
    | none => exact ⟨Frame.refl i _, rfl, by simp [groupOf, hg]⟩
    | some g =>
      refine ⟨⟨rfl, rfl, rfl, ?_, fun _ _ => rfl⟩, rfl, by simp [groupOf, hg]⟩
      intro j hj
      have : ¬ i = j := fun e => hj e.symm
      simp [groupOf, this]

theorem apply_at (d : Disk K) (hd : d.file.isSome) (i : ℕ) (e : Eff K) (he : Eff.At i e) :
    Frame i d (apply d e) ∧ (apply d e).raw = d.raw ∧
      groupOf (apply d e) i = gapply (groupOf d i) e := by
  obtain ⟨file, raw⟩ := d
  cases file with
  | none => cases hd
  | some file =>
    cases he with
    | del =>
      refine ⟨⟨rfl, rfl, rfl, ?_, fun _ _ => rfl⟩, rfl, by simp [apply, groupOf, gapply]⟩
      intro j hj
      have : ¬ i = j := fun e => hj e.symm
      simp [apply, groupOf, this]
    | new =>
      refine ⟨⟨rfl, rfl, rfl, ?_, fun _ _ => rfl⟩, rfl, by simp [apply, groupOf, gapply]⟩
      intro j hj
      have : ¬ i = j := fun e => hj e.symm
      simp [apply, groupOf, this]
    | cuts t => exact onGroup_frame _ i _
    | data p c => exact onGroup_frame _ i _
    | info l => exact onGroup_frame _ i _
    | units p u => exact onGroup_frame _ i _
    | hdep p e => exact onGroup_frame _ i _

theorem applyAll_at (i : ℕ) (es : List (Eff K)) (he : ∀ e ∈ es, Eff.At i e) :
    ∀ d : Disk K, d.file.isSome → Frame i d (applyAll d es) ∧ (applyAll d es).raw = d.raw ∧
      groupOf (applyAll d es) i = es.foldl gapply (groupOf d i) := by
  induction es with
  | nil => intro d _; exact ⟨Frame.refl i d, rfl, rfl⟩
  | cons e es ih =>
    intro d hd
    obtain ⟨f1, r1, g1⟩ := apply_at d hd i e (he e (by simp))
    obtain ⟨f2, r2, g2⟩ := ih (fun x hx => he x (List.mem_cons_of_mem _ hx)) (apply d e)
      (by rw [f1.file]; exact hd)
    refine ⟨f1.trans f2, r2.trans r1, ?_⟩
    rw [List.foldl_cons, ← g1]
    exact g2

theorem applyAll_append (d : Disk K) (a b : List (Eff K)) :
    applyAll d (a ++ b) = applyAll (applyAll d a) b := by
  unfold applyAll; rw [List.foldl_append]

/-! ## The datasets of a group -/

/-- The effects that write a dataset. -/
def dataEffs (i : ℕ) (x : Item K) : List (Eff K) :=
  [.newData i x.name x.col, .setUnits i x.name x.units, .setHdep i x.name x.hdep]

/-- A dataset written completely. -/
def full (x : Item K) : Data K := { data := x.col, units := some x.units, hdep := some x.hdep }

theorem dataEffs_one (i : ℕ) (x : Item K) (g : Group K) :
    ∃ D : PyDict Name (Data K), (dataEffs i x).foldl gapply (some g) = some { g with data := D } ∧
      ∀ n, D.get? n = if x.name = n then some (full x) else g.data.get? n := by
  refine ⟨((g.data.set x.name { data := x.col }).set x.name
    { data := x.col, units := some x.units }).set x.name (full x), ?_, ?_⟩
  · simp [dataEffs, gapply, full]
  · intro n
    by_cases h : x.name = n <;> simp [h]

theorem dataEffs_all (i : ℕ) (xs : List (Item K)) (hnd : (xs.map (·.name)).Nodup) :
    ∀ g : Group K, ∃ D : PyDict Name (Data K),
      (xs.flatMap (dataEffs i)).foldl gapply (some g) = some { g with data := D } ∧
      (∀ x ∈ xs, D.get? x.name = some (full x)) ∧
      (∀ n, n ∉ xs.map (·.name) → D.get? n = g.data.get? n) := by
  induction xs with
  | nil => intro g; exact ⟨g.data, rfl, by simp, by simp⟩
  | cons x xs ih =>
    intro g
    rw [List.map_cons, List.nodup_cons] at hnd
    obtain ⟨D1, h1, h2⟩ := dataEffs_one i x g
    obtain ⟨D, h3, h4, h5⟩ := ih hnd.2 { g with data := D1 }
    refine ⟨D, ?_, ?_, ?_⟩
    · rw [List.flatMap_cons, List.foldl_append, h1, h3]
    · intro y hy
      rcases List.mem_cons.1 hy with hy | hy
      · rw [hy, h5 _ hnd.1, h2]; simp
      · exact h4 y hy
    · intro n hn
      simp only [List.map_cons, List.mem_cons, not_or] at hn
      rw [h5 n hn.2, h2, if_neg (fun e => hn.1 e.symm)]

/-! ## Writing one snapshot -/

theorem writeData_at (i : ℕ) (its : List (Except Err (Item K))) :
    ∀ (used : List Name), ∀ e ∈ (writeData i used its).1, Eff.At i e := by
  induction its with
  | nil => intro used e he; cases he
  | cons it its ih =>
    intro used e he
    cases it with
    | error x => cases he
    | ok x =>
      unfold writeData at he
      by_cases hx : x.name ∈ used
      · simp [hx] at he
      · simp only [hx, if_false, List.mem_cons] at he
        rcases he with rfl | rfl | rfl | he
        · exact .data _ _
        · exact .units _ _
        · exact .hdep _ _
        · exact ih _ e he

/-- The effects of writing a snapshot concern that snapshot only, and its raw data are deleted at
the very end, if at all. -/
theorem writeOne_shape (cat : Cat K) (other : Fields) (clean present : Bool) (i : ℕ)
    (f : Formatted K) : ∃ A, (∀ e ∈ A, Eff.At i e) ∧
      ((writeOne cat other clean present i f).1 = A ∨
        (clean = true ∧ (writeOne cat other clean present i f).1 = A ++ [.rmRaw i] ∧
          (writeOne cat other clean present i f).2 = .ok ())) := by
  have hstart : ∀ e ∈ ((if present then [.delGroup i] else []) ++
      [.newGroup i, .newCuts i f.cuts] : List (Eff K)), Eff.At i e := by
    intro e he
    cases present
    · simp at he
      rcases he with rfl | rfl
      · exact .new
      · exact .cuts _
    · simp at he
      rcases he with rfl | rfl | rfl
      · exact .del
      · exact .new
      · exact .cuts _
  have hdata := writeData_at i (items f other) ["mass_cuts"]
  unfold writeOne
  cases hw : writeData i ["mass_cuts"] (items f other) with
  | mk es r =>
    rw [hw] at hdata
    cases r with
    | error x =>
      refine ⟨_, ?_, Or.inl rfl⟩
      intro e he
      rcases List.mem_append.1 he with he | he
      · exact hstart e he
      · exact hdata e he
    | ok u =>
      refine ⟨((if present then [.delGroup i] else []) ++ [.newGroup i, .newCuts i f.cuts]) ++ es ++
        [.setInfo i (cat.metas.filter (fun m => m.index = i))], ?_, ?_⟩
      · intro e he
        rcases List.mem_append.1 he with he | he
        · rcases List.mem_append.1 he with he | he
          · exact hstart e he
          · exact hdata e he
        · simp at he
          subst he
          exact .info _
      · cases clean
        · left; simp
        · right; simp

theorem apply_rmRaw (d : Disk K) (i : ℕ) : Frame i d (apply d (.rmRaw i)) ∧
    groupOf (apply d (.rmRaw i)) i = groupOf d i ∧
    (apply d (.rmRaw i)).raw.get? i = none := by
  refine ⟨⟨rfl, rfl, rfl, fun _ _ => rfl, ?_⟩, rfl, by simp [apply]⟩
  intro j hj
  have : ¬ i = j := fun e => hj e.symm
  simp [apply, this]

theorem prefix_append_cases {α : Type} (P A B : List α) (h : P <+: A ++ B) :
    P <+: A ∨ ∃ Q, P = A ++ Q ∧ Q <+: B := by
  rcases List.prefix_or_prefix_of_prefix h (List.prefix_append A B) with h1 | h1
  · exact Or.inl h1
  · right
    obtain ⟨Q, rfl⟩ := h1
    exact ⟨Q, rfl, (List.prefix_append_right_inj A).1 h⟩

/-- Any prefix of writing a snapshot leaves everything else alone; the raw data are still there
unless all of it was done. -/
theorem writeOne_prefix (cat : Cat K) (other : Fields) (clean present : Bool) (i : ℕ)
    (f : Formatted K) (P : List (Eff K)) (hP : P <+: (writeOne cat other clean present i f).1)
    (d : Disk K) (hd : d.file.isSome) :
    Frame i d (applyAll d P) ∧ ((applyAll d P).raw.get? i = d.raw.get? i ∨
      (clean = true ∧ (applyAll d P).raw.get? i = none ∧
        P = (writeOne cat other clean present i f).1 ∧
        (writeOne cat other clean present i f).2 = .ok ())) := by
  obtain ⟨A, hA, hs⟩ := writeOne_shape cat other clean present i f
  have sub : ∀ P, P <+: A → Frame i d (applyAll d P) ∧
      (applyAll d P).raw.get? i = d.raw.get? i := by
    intro P hP
    obtain ⟨h1, h2, _⟩ := applyAll_at i P (fun e he => hA e (hP.subset he)) d hd
    exact ⟨h1, by rw [h2]⟩
  rcases hs with hs | ⟨hc, hs, hok⟩
  · rw [hs] at hP
    exact ⟨(sub P hP).1, Or.inl (sub P hP).2⟩
  · rw [hs] at hP
    rcases prefix_append_cases P A _ hP with h | ⟨Q, rfl, hQ⟩
    · exact ⟨(sub P h).1, Or.inl (sub P h).2⟩
    · obtain ⟨fA, rA⟩ := sub A List.prefix_rfl
      cases Q with
      | nil => rw [List.append_nil]; exact ⟨fA, Or.inl rA⟩
      | cons q Q =>
        obtain ⟨T, hT⟩ := hQ
        simp only [List.cons_append, List.cons.injEq, List.append_eq_nil_iff] at hT
        obtain ⟨rfl, rfl, rfl⟩ := hT
        rw [applyAll_append]
        obtain ⟨f2, _, r2⟩ := apply_rmRaw (applyAll d A) i
        exact ⟨fA.trans f2, Or.inr ⟨hc, r2, hs.symm, hok⟩⟩

variable [LinearOrder K]

/-- A snapshot that was formatted and written is complete. -/
theorem writeOne_complete (cat : Cat K) (harg : IsArgsort cat.argsort) (other : Fields)
    (clean present : Bool) (i : ℕ) (raw : Raw K) (f : Formatted K)
    (hf : formatOne cat other raw = .ok f) (d : Disk K) (hd : d.file.isSome)
    (hw : (writeOne cat other clean present i f).2 = .ok ()) :
    ∃ g, groupOf (applyAll d (writeOne cat other clean present i f).1) i = some g ∧
      Complete cat other raw i g := by
  obtain ⟨inds, hF⟩ := formatOne_ok cat harg other raw f hf
  unfold writeOne at hw ⊢
  cases hwd : writeData i ["mass_cuts"] (items f other) with
  | mk es r =>
    rw [hwd] at hw
    cases r with
    | error x => simp at hw
    | ok u =>
      obtain ⟨xs, hx1, hx2, hx3, hx4⟩ := writeData_ok i _ _ es hwd
      simp only
      have hes : es = xs.flatMap (dataEffs i) := hx4
      have hat := writeData_at i (items f other) ["mass_cuts"]
      rw [hwd] at hat
      simp only at hat
      obtain ⟨D, hD1, hD2, hD3⟩ := dataEffs_all i xs hx3 { cuts := some f.cuts }
      -- everything up to the deletion of the raw data
      let A : List (Eff K) := (if present then [.delGroup i] else []) ++
        [.newGroup i, .newCuts i f.cuts] ++ es ++
        [.setInfo i (cat.metas.filter (fun m => m.index = i))]
      have hA : ∀ e ∈ A, Eff.At i e := by
        intro e he
        simp only [A, List.mem_append] at he
        rcases he with ((he | he) | he) | he
        · cases present
          · simp at he
          · simp at he; subst he; exact .del
        · simp at he
          rcases he with rfl | rfl
          · exact .new
          · exact .cuts _
        · exact hat e he
        · simp at he; subst he; exact .info _
      let g : Group K := { cuts := some f.cuts, data := D,
                           info := some (cat.metas.filter (fun m => m.index = i)) }
      have hg : groupOf (applyAll d A) i = some g := by
        rw [(applyAll_at i A hA d hd).2.2]
        have e1 : ∀ og : Option (Group K), ((if present then [.delGroup i] else []) ++
            [.newGroup i, .newCuts i f.cuts] : List (Eff K)).foldl gapply og =
            some { cuts := some f.cuts } := by
          intro og
          cases present <;> simp [gapply]
        simp only [A, List.foldl_append]
        have := e1 (groupOf d i)
        rw [List.foldl_append] at this
        rw [this, hes, hD1]
        simp [gapply, g]
      refine ⟨g, ?_, ?_⟩
      · cases clean
        · simp only [Bool.false_eq_true, if_false, List.append_nil]
          exact hg
        · simp only [if_true]
          rw [applyAll_append]
          have := (apply_rmRaw (applyAll d A) i).2.1
          exact this.trans hg
      · obtain ⟨hi1, hi2⟩ := items_ok cat other raw f inds hF xs hx1
        refine ⟨⟨inds, hF.perm, ?_⟩, ?_, ?_, rfl⟩
        · intro e he
          obtain ⟨x, hx, n1, n2, n3, n4, n5⟩ := hi2 e he
          refine ⟨full x, ?_, by simp [full, n2], by simp [full, n3], n4, n5⟩
          rw [← n1]
          exact hD2 x hx
        · intro name hn
          by_cases hm : name ∈ xs.map (·.name)
          · obtain ⟨x, hx, rfl⟩ := List.mem_map.1 hm
            obtain ⟨e, he, hI⟩ := hi1 x hx
            exact ⟨e, he, hI.1.symm⟩
          · have := hD3 name hm
            rw [PyDict.mem_keys_iff] at hn
            simp only [g] at hn
            rw [this] at hn
            cases hn
        · obtain ⟨s, ms, h1, h2, h3⟩ := hF.mass
          have hmem := List.mem_of_find?_eq_some h1
          have hname : s.name = "mass" := by
            have := List.find?_some h1
            simpa using this
          have hit : (.ok ⟨s.name, .one ms, s.units, s.hdep⟩ : Except Err (Item K)) ∈
              items f other := by
            unfold items
            exact List.mem_append_left _ (List.mem_map.2 ⟨_, hmem, rfl⟩)
          rw [hx1] at hit
          obtain ⟨x, hx, hxe⟩ := List.mem_map.1 hit
          simp only [Except.ok.injEq] at hxe
          subst hxe
          refine ⟨full ⟨s.name, .one ms, s.units, s.hdep⟩, ms, ?_, rfl, h2, ?_⟩
          · rw [← hname]; exact hD2 _ hx
          · refine ⟨f.cuts, rfl, ?_, ?_⟩
            · rw [h3]; simp [massCuts, Function.comp_def]
            · intro c hc
              rw [h3] at hc
              unfold massCuts at hc
              obtain ⟨b, _, rfl⟩ := List.mem_map.1 hc
              exact cutIndex_eq ms h2 b

/-! ## The loop -/

/-- What holds after any prefix of the loop. -/
structure LoopInv (cat : Cat K) (other : Fields) (clean : Bool) (todo : List ℕ) (d d' : Disk K) :
    Prop where
  file : d'.file.isSome = d.file.isSome
  metas : metasOf d' = metasOf d
  num : numOf d' = numOf d
  groups : ∀ j, j ∉ todo → groupOf d' j = groupOf d j
  raw : ∀ j, j ∉ todo → d'.raw.get? j = d.raw.get? j
  safe : ∀ j ∈ todo, ∀ r, d.raw.get? j = some r → d'.raw.get? j = some r ∨
    (clean = true ∧ d'.raw.get? j = none ∧
      ∃ g, groupOf d' j = some g ∧ Complete cat other r j g)
  missing : ∀ j, d.raw.get? j = none → groupOf d' j = groupOf d j ∧ d'.raw.get? j = none

omit [LinearOrder K] in
theorem Frame.loop [LinearOrder K] {cat : Cat K} {other : Fields} {clean : Bool} {todo : List ℕ}
    {d d' : Disk K} {i : ℕ} (hi : i ∈ todo) (hF : Frame i d d') (hsome : (d.raw.get? i).isSome)
    (hs : ∀ r, d.raw.get? i = some r → d'.raw.get? i = some r ∨
      (clean = true ∧ d'.raw.get? i = none ∧
        ∃ g, groupOf d' i = some g ∧ Complete cat other r i g)) :
    LoopInv cat other clean todo d d' := by
  refine ⟨hF.file, hF.metas, hF.num, ?_, ?_, ?_, ?_⟩
  · intro j hj; exact hF.groups j (fun e => hj (e ▸ hi))
  · intro j hj; exact hF.raw j (fun e => hj (e ▸ hi))
  · intro j _ r hr
    by_cases hji : j = i
    · subst hji; exact hs r hr
    · left; rw [hF.raw j hji]; exact hr
  · intro j hj
    have hji : j ≠ i := by
      intro e; subst e; rw [hj] at hsome; cases hsome
    exact ⟨hF.groups j hji, by rw [hF.raw j hji]; exact hj⟩

omit [LinearOrder K] in
theorem LoopInv.refl [LinearOrder K] (cat : Cat K) (other : Fields) (clean : Bool) (todo : List ℕ)
    (d : Disk K) : LoopInv cat other clean todo d d :=
  ⟨rfl, rfl, rfl, fun _ _ => rfl, fun _ _ => rfl, fun _ _ _ h => Or.inl h,
    fun _ h => ⟨rfl, h⟩⟩

theorem formatLoop_prefix (cat : Cat K) (harg : IsArgsort cat.argsort) (other : Fields)
    (clean : Bool) (todo : List ℕ) (hnd : todo.Nodup) : ∀ (d : Disk K), d.file.isSome →
    ∀ P, P <+: (formatLoop cat other clean d todo).1 →
      LoopInv cat other clean todo d (applyAll d P) := by
  induction todo with
  | nil =>
    intro d _ P hP
    have : P = [] := List.prefix_nil.1 hP
    subst this
    exact LoopInv.refl _ _ _ _ d
  | cons i rest ih =>
    intro d hd P hP
    rw [List.nodup_cons] at hnd
    unfold formatLoop at hP
    cases hr : d.raw.get? i with
    | none =>
      rw [hr] at hP
      have : P = [] := List.prefix_nil.1 hP
      subst this
      exact LoopInv.refl _ _ _ _ d
    | some raw =>
      rw [hr] at hP
      simp only at hP
      cases hf : formatOne cat other raw with
      | error e =>
        rw [hf] at hP
        have : P = [] := List.prefix_nil.1 hP
        subst this
        exact LoopInv.refl _ _ _ _ d
      | ok f =>
        rw [hf] at hP
        simp only at hP
        have one : ∀ Q, Q <+: (writeOne cat other clean (hasGroup d i) i f).1 →
            Frame i d (applyAll d Q) ∧
            LoopInv cat other clean (i :: rest) d (applyAll d Q) := by
          intro Q hQ
          obtain ⟨h1, h2⟩ := writeOne_prefix cat other clean (hasGroup d i) i f Q hQ d hd
          refine ⟨h1, h1.loop List.mem_cons_self (by rw [hr]; rfl) ?_⟩
          intro r hr'
          rw [hr] at hr'
          simp only [Option.some.injEq] at hr'
          subst hr'
          rcases h2 with h2 | ⟨hc, h2, h3, h4⟩
          · left; rw [h2, hr]
          · right
            refine ⟨hc, h2, ?_⟩
            rw [h3]
            exact writeOne_complete cat harg other clean _ i raw f hf d hd h4
        cases hw : writeOne cat other clean (hasGroup d i) i f with
        | mk es r =>
          rw [hw] at hP one
          cases r with
          | error e => exact (one P hP).2
          | ok u =>
            simp only at hP
            rcases prefix_append_cases P es _ hP with h | ⟨Q, rfl, hQ⟩
            · exact (one P h).2
            · rw [applyAll_append]
              obtain ⟨fr, inv⟩ := one es List.prefix_rfl
              have hd' : (applyAll d es).file.isSome := by rw [inv.file]; exact hd
              have inv2 := ih hnd.2 (applyAll d es) hd' Q hQ
              refine ⟨inv2.file.trans inv.file, inv2.metas.trans inv.metas,
                inv2.num.trans inv.num, ?_, ?_, ?_, ?_⟩
              · intro j hj
                rw [inv2.groups j (fun h => hj (List.mem_cons_of_mem _ h)), inv.groups j hj]
              · intro j hj
                rw [inv2.raw j (fun h => hj (List.mem_cons_of_mem _ h)), inv.raw j hj]
              · intro j hj r hjr
                by_cases hji : j = i
                · subst hji
                  rw [inv2.raw j hnd.1, inv2.groups j hnd.1]
                  exact inv.safe j hj r hjr
                · have hj' : j ∈ rest := by
                    rcases List.mem_cons.1 hj with h | h
                    · exact absurd h hji
                    · exact h
                  exact inv2.safe j hj' r (by rw [fr.raw j hji]; exact hjr)
              · intro j hj
                obtain ⟨m1, m2⟩ := inv.missing j hj
                obtain ⟨m3, m4⟩ := inv2.missing j m2
                exact ⟨m3.trans m1, m4⟩

/-- A loop that ends normally has formatted every snapshot. -/
theorem formatLoop_done (cat : Cat K) (harg : IsArgsort cat.argsort) (other : Fields)
    (clean : Bool) (todo : List ℕ) (hnd : todo.Nodup) : ∀ (d : Disk K), d.file.isSome →
    (formatLoop cat other clean d todo).2 = .ok () → ∀ j ∈ todo, ∃ r g, d.raw.get? j = some r ∧
      groupOf (applyAll d (formatLoop cat other clean d todo).1) j = some g ∧
      Complete cat other r j g ∧
      (clean = false →
        (applyAll d (formatLoop cat other clean d todo).1).raw.get? j = some r) ∧
      (clean = true →
        (applyAll d (formatLoop cat other clean d todo).1).raw.get? j = none) := by
  induction todo with
  | nil => intro d _ _ j hj; cases hj
  | cons i rest ih =>
    intro d hd hok j hj
    rw [List.nodup_cons] at hnd
    unfold formatLoop at hok ⊢
    cases hr : d.raw.get? i with
    | none => rw [hr] at hok; cases hok
    | some raw =>
      rw [hr] at hok
      simp only at hok ⊢
      cases hf : formatOne cat other raw with
      | error e => rw [hf] at hok; cases hok
      | ok f =>
        rw [hf] at hok
        simp only at hok ⊢
        have hshape := writeOne_shape cat other clean (hasGroup d i) i f
        have hpre := writeOne_prefix cat other clean (hasGroup d i) i f _ List.prefix_rfl d hd
        have hcomp := writeOne_complete cat harg other clean (hasGroup d i) i raw f hf d hd
        have hraw : (writeOne cat other clean (hasGroup d i) i f).2 = .ok () → clean = true →
            (applyAll d (writeOne cat other clean (hasGroup d i) i f).1).raw.get? i = none := by
          intro h1 hc
          unfold writeOne at h1 ⊢
          cases hwd : writeData i ["mass_cuts"] (items f other) with
          | mk es r =>
            rw [hwd] at h1
            cases r with
            | error x => simp at h1
            | ok u =>
              simp only [hc, if_true]
              rw [applyAll_append]
              exact (apply_rmRaw _ i).2.2
        cases hw : writeOne cat other clean (hasGroup d i) i f with
        | mk es r =>
          rw [hw] at hok hpre hcomp hraw
          cases r with
          | error e => cases hok
          | ok u =>
            simp only at hok ⊢ hpre hcomp hraw
            obtain ⟨fr, hrw⟩ := hpre
            have hd' : (applyAll d es).file.isSome := by rw [fr.file]; exact hd
            rw [applyAll_append]
            by_cases hji : j = i
            · subst hji
              obtain ⟨g, hg, hC⟩ := hcomp trivial
              have inv := formatLoop_prefix cat harg other clean rest hnd.2 (applyAll d es) hd' _
                List.prefix_rfl
              refine ⟨raw, g, hr, by rw [inv.groups j hnd.1]; exact hg, hC, ?_, ?_⟩
              · intro hc
                rw [inv.raw j hnd.1]
                rcases hrw with h | ⟨h, _⟩
                · rw [h, hr]
                · rw [hc] at h; cases h
              · intro hc
                rw [inv.raw j hnd.1]
                exact hraw trivial hc
            · have hj' : j ∈ rest := by
                rcases List.mem_cons.1 hj with h | h
                · exact absurd h hji
                · exact h
              obtain ⟨r, g, h1, h2⟩ := ih hnd.2 (applyAll d es) hd' hok j hj'
              exact ⟨r, g, by rw [← fr.raw j hji]; exact h1, h2⟩

end Verif.Format
